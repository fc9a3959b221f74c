import Verif.Props.Options
import Verif.Props.Detectors
import Verif.Props.Latest

/-!
# C125: options of the model that is not used

`threshold` belongs to the spectral residual model, `alpha` to the other two. The model is chosen by period, granularity, interval and series.
-/

namespace Verif

open Spec

namespace Spec

/-- an admissible `threshold`: absent or a Python `float` -/
def ThresholdOk (o : Option PyVal) : Prop := o = none ∨ ∃ f, o = some (.float f)

/-- an admissible `alpha`: absent or a number that is not at most 0 -/
def AlphaOk (o : Option PyVal) : Prop := o = none ∨ ∃ v f, o = some v ∧ IsNumber v f ∧ f.le (.fin 0) = false

/-- the request says that time goes in steps of less than an hour: minutes, fewer than 60 at a time, or seconds, fewer than 3600 at a time -/
def FineGrained (p : Params) : Prop :=
  (p "granularity" = some (.str "minutely") ∧ ∀ v i, p "customInterval" = some v → IsInt v i → i < 60) ∨
    (p "granularity" = some (.str "secondly") ∧ ∀ v i, p "customInterval" = some v → IsInt v i → i < 3600)

/-- the request names this period -/
def NamesPeriod (p : Params) (n : Int) : Prop := ∃ v, p "period" = some v ∧ IsInt v n

/-- the request does not say how to fill gaps -/
def NoFillMode (p : Params) : Prop :=
  (p "imputeMode" = none ∨ p "imputeMode" = some .none) ∧ (p "fillUpMode" = none ∨ p "fillUpMode" = some .none)

/-- the values of the rows have a median absolute deviation, divided by the constant `c`, of at least `1e-8` -/
def Scattered (parse : String → Option PyFloat) (c : ℚ) : DataArg → Prop
  | .frame _ _ rows => ∃ l med mad, l.length = rows.length ∧ (∀ i q, l[i]? = some q → RowValue parse rows i q) ∧
      IsMedian l med ∧ IsMedian (l.map fun x => |x - med|) mad ∧ 1 / 10 ^ 8 ≤ mad / c
  | _ => False

end Spec

/-! ### parsing -/

/-- two bodies started on dicts that agree except at `k`, where they hold `a` and `b`, end in related ways, with such dicts -/
def SimV {α β : Type} (k : String) (a b : Option PyVal) (R : α → β → Prop) (x : PM α) (y : PM β) : Prop :=
  ∀ p q, Off k a b p q → ResRel R (x p).2 (y q).2 ∧ Off k a b (x p).1 (y q).1

variable {k : String} {a b : Option PyVal}

theorem simV_bind {α α' β β' : Type} {R : α → α' → Prop} {S : β → β' → Prop} {x : PM α} {y : PM α'}
    {f : α → PM β} {g : α' → PM β'} (hx : SimV k a b R x y) (hf : ∀ c d, R c d → SimV k a b S (f c) (g d)) :
    SimV k a b S (x >>= f) (y >>= g) := by
  intro p q hpq
  obtain ⟨h1, h2⟩ := hx p q hpq
  show ResRel S (PM.bind x f p).2 (PM.bind y g q).2 ∧ Off k a b (PM.bind x f p).1 (PM.bind y g q).1
  unfold PM.bind
  rcases e : x p with ⟨p', r⟩
  rcases e' : y q with ⟨q', r'⟩
  rw [e, e'] at h1 h2
  cases h1 with
  | ok h => exact hf _ _ h p' q' h2
  | early c => exact ⟨.early c, h2⟩
  | err x c => exact ⟨.err x c, h2⟩

theorem simV_of {α : Type} {x : PM α} (h : Sim k a b x) : SimV k a b Eq x x := by
  intro p q hpq
  obtain ⟨h1, h2⟩ := h p q hpq
  refine ⟨?_, h2⟩
  rw [h1]
  rcases (x q).2 with a | c | ⟨e, c⟩
  · exact .ok rfl
  · exact .early c
  · exact .err e c

theorem simV_step {α β β' : Type} {S : β → β' → Prop} {x : PM α} {f : α → PM β} {g : α → PM β'}
    (hx : Sim k a b x) (hf : ∀ c, SimV k a b S (f c) (g c)) : SimV k a b S (x >>= f) (x >>= g) :=
  simV_bind (simV_of hx) fun c _ h => h ▸ hf c

theorem threshold_any (ha : ThresholdOk a) (hb : ThresholdOk b) : SimV "threshold" a b (fun _ _ => True) parseThreshold parseThreshold := by
  intro p q h
  have key : ∀ p : Params, ThresholdOk (p "threshold") → ∃ t, parseThreshold p = (p, .ok t) := by
    intro p hp
    have e : parseThreshold p = (match p "threshold" with
      | none => Pure.pure none
      | some v => match v.asFloat? with
        | some f => Pure.pure (some f)
        | none => PM.early "InvalidModelArgument" : PM (Option PyFloat)) p := rfl
    rw [e]
    rcases hp with hp | ⟨f, hp⟩ <;> rw [hp] <;> exact ⟨_, rfl⟩
  obtain ⟨t, ht⟩ := key p (h.left ▸ ha)
  obtain ⟨t', ht'⟩ := key q (h.right ▸ hb)
  rw [ht, ht']
  exact ⟨.ok trivial, h⟩

theorem alpha_any (ha : AlphaOk a) (hb : AlphaOk b) : SimV "alpha" a b (fun _ _ => True) parseAlpha parseAlpha := by
  intro p q h
  have key : ∀ p : Params, AlphaOk (p "alpha") → ∃ t, parseAlpha p = (p, .ok t) := by
    intro p hp
    have e : parseAlpha p = (match p "alpha" with
      | none => Pure.pure none
      | some v => match v.asNumber? with
        | some f => if f.le (.fin 0) then PM.early "InvalidModelArgument" else Pure.pure (some f)
        | none => PM.early "InvalidModelArgument" : PM (Option PyFloat)) p := rfl
    rw [e]
    rcases hp with hp | ⟨v, f, hp, hv, hf⟩ <;> rw [hp]
    · exact ⟨_, rfl⟩
    · have : v.asNumber? = some f := by
        cases hv with
        | int h => cases h <;> rfl
        | float f => rfl
      simp only [this, hf]
      exact ⟨_, rfl⟩
  obtain ⟨t, ht⟩ := key p (h.left ▸ ha)
  obtain ⟨t', ht'⟩ := key q (h.right ▸ hb)
  rw [ht, ht']
  exact ⟨.ok trivial, h⟩

/-- the parameters with another `threshold` and `alpha` -/
def ModelParams.with (mp : ModelParams) (al th : Option PyFloat) : ModelParams := { mp with alpha := al, threshold := th }

def SameBut (r r' : ParseResult) (al th : Option PyFloat) : Prop :=
  r'.hasTs = r.hasTs ∧ r'.hasValue = r.hasValue ∧ r'.rows = r.rows ∧ r'.code = r.code ∧ r'.mp = r.mp.with al th

theorem parseArg_threshold (ha : ThresholdOk a) (hb : ThresholdOk b) (E : Env) (data : DataArg) :
    SimV "threshold" a b (fun r r' => ∃ th, SameBut r r' r.mp.alpha th) (parseArg E data) (parseArg E data) := by
  have early : ∀ {α : Type} {R : α → α → Prop}, SimV "threshold" a b R (PM.earlyNoCode : PM α) PM.earlyNoCode :=
    fun p q h => ⟨.early none, h⟩
  unfold parseArg
  split
  · exact early
  · exact early
  · exact fun p q h => ⟨.err _ _, h⟩
  split
  · exact early
  refine simV_step (sim_granularity (by decide)) fun g => simV_step (sim_interval (by decide)) fun iv =>
    simV_step (sim_period (by decide)) fun _ => simV_step (sim_alpha (by decide)) fun al =>
    simV_step (sim_ratio (by decide)) fun ra => simV_step (sim_sensitivity (by decide)) fun _ => ?_
  refine simV_bind (threshold_any ha hb) fun th th' _ => ?_
  refine simV_step (sim_default (by decide)) fun _ => simV_step (sim_fill (by decide) (by decide) (by decide) (by decide)) fun fi =>
    simV_step (sim_default (by decide)) fun _ => simV_step (sim_default (by decide)) fun sp =>
    simV_step (sim_boundary (by decide) (by decide)) fun bv => simV_step (sim_detector (by decide)) fun de =>
    simV_step (sim_indices (by decide) (by decide) _ _ _ _ _ _) fun ix => ?_
  exact fun p q h => ⟨.ok ⟨th', rfl, rfl, rfl, rfl, rfl⟩, h⟩

theorem parseArg_alpha (ha : AlphaOk a) (hb : AlphaOk b) (E : Env) (data : DataArg) :
    SimV "alpha" a b (fun r r' => ∃ al, SameBut r r' al r.mp.threshold) (parseArg E data) (parseArg E data) := by
  have early : ∀ {α : Type} {R : α → α → Prop}, SimV "alpha" a b R (PM.earlyNoCode : PM α) PM.earlyNoCode :=
    fun p q h => ⟨.early none, h⟩
  unfold parseArg
  split
  · exact early
  · exact early
  · exact fun p q h => ⟨.err _ _, h⟩
  split
  · exact early
  refine simV_step (sim_granularity (by decide)) fun g => simV_step (sim_interval (by decide)) fun iv =>
    simV_step (sim_period (by decide)) fun _ => ?_
  refine simV_bind (alpha_any ha hb) fun al al' _ => ?_
  refine simV_step (sim_ratio (by decide)) fun ra => simV_step (sim_sensitivity (by decide)) fun _ =>
    simV_step (sim_threshold (by decide)) fun th =>
    simV_step (sim_default (by decide)) fun _ => simV_step (sim_fill (by decide) (by decide) (by decide) (by decide)) fun fi =>
    simV_step (sim_default (by decide)) fun _ => simV_step (sim_default (by decide)) fun sp =>
    simV_step (sim_boundary (by decide) (by decide)) fun bv => simV_step (sim_detector (by decide)) fun de =>
    simV_step (sim_indices (by decide) (by decide) _ _ _ _ _ _) fun ix => ?_
  exact fun p q h => ⟨.ok ⟨al', rfl, rfl, rfl, rfl, rfl⟩, h⟩

/-! ### running -/

/-- the model with another `threshold` and `alpha` -/
def Model.with (M : Model) (al th : PyFloat) : Model := { M with alpha := al, threshold := th }

theorem run_with_threshold (E : Env) (M : Model) (th : PyFloat) {series : List ℚ} {n : Nat}
    (h : 1 < n ∨ shouldTriggerSr E M.gran M.interval series = false) (ratio : ℚ) (last : Bool) :
    (M.with M.alpha th).run E series ratio n last = M.run E series ratio n last := by
  unfold Model.run Model.with
  rcases h with h | h
  · simp only [if_pos h]
  · simp only [h, Bool.false_eq_true, if_false]

theorem run_with_alpha (E : Env) (M : Model) (al : PyFloat) {series : List ℚ} {n : Nat} (hn : ¬ 1 < n)
    (h : shouldTriggerSr E M.gran M.interval series = true) (ratio : ℚ) (last : Bool) :
    (M.with al M.threshold).run E series ratio n last = M.run E series ratio n last := by
  unfold Model.run Model.with
  simp only [if_neg hn, h, if_true]

theorem ebind_congr {ε α β : Type} {x : Except ε α} {f g : α → Except ε β} (h : ∀ c, x = .ok c → f c = g c) :
    (x >>= f) = (x >>= g) := by
  cases x with
  | error e => rfl
  | ok c => exact h c rfl

theorem select_with (E : Env) (M : Model) (al th : PyFloat) (period : Option Nat) (last : Bool)
    (h : ∀ p source full, M.usedPeriod E period = .ok (p, source) → M.usedSeries E p = .ok full → ∀ ratio,
      (M.with al th).run E ((full.map (·.1)).getD M.values) ratio p last = M.run E ((full.map (·.1)).getD M.values) ratio p last) :
    (M.with al th).select E period last = M.select E period last := by
  have h1 : (M.with al th).usedPeriod E period = M.usedPeriod E period := rfl
  have h2 : ∀ p, (M.with al th).usedSeries E p = M.usedSeries E p := fun _ => rfl
  have h3 : (M.with al th).maxRatio last = M.maxRatio last := rfl
  have h4 : ∀ s p, (M.with al th).runNaN E s p last = M.runNaN E s p last := fun _ _ => by unfold Model.runNaN Model.with; rfl
  have h5 : (M.with al th).values = M.values := rfl
  unfold Model.select
  rw [h1]
  refine ebind_congr fun x hp => ?_
  obtain ⟨p, source⟩ := x
  simp only [h2]
  refine ebind_congr fun full hs => ?_
  simp only [h3, h4, h5, h p source full hp hs]

theorem detect_with (E : Env) (M : Model) (al th : PyFloat) (det : Option (List (String × PyVal))) (period : Option Nat) (last : Bool)
    (h : (M.with al th).select E period last = M.select E period last) :
    (M.with al th).detect E det period last = M.detect E det period last := by
  unfold Model.detect
  have h1 : (M.with al th).majority = M.majority := rfl
  have h2 : ∀ d, (M.with al th).explicitError d period = M.explicitError d period := fun _ => rfl
  have h3 : ∀ p s r, (M.with al th).spectrum E p s r = M.spectrum E p s r := fun _ _ _ => rfl
  simp only [h, h1, h2, h3]

theorem init_with (E : Env) (vs : List PyFloat) (mp : ModelParams) (al th : Option PyFloat) :
    Model.init E vs (mp.with al th) = (Model.init E vs mp).map (·.with (al.getD (.fin (5 / 100))) (th.getD (.fin (35 / 10)))) := by
  unfold Model.init ModelParams.with
  simp only
  split
  · rfl
  · split
    · split
      · rfl
      · rename_i values _ _ _ _ _ idx _
        cases FillProc.init idx values <;> rfl
    · rfl

theorem runModel_with (E : Env) (m : PyVal) (ht hv : Bool) (rows : List (PyVal × PyVal)) (mp : ModelParams) (p : Params)
    (al th : Option PyFloat)
    (h : ∀ vs M, cellValues E hv rows = .ok vs → Model.init E vs mp = .ok M →
      (M.with (al.getD (.fin (5 / 100))) (th.getD (.fin (35 / 10)))).select E (paramPeriod p) (isLatest m) = M.select E (paramPeriod p) (isLatest m)) :
    runModel E m ht hv rows (mp.with al th) p = runModel E m ht hv rows mp p := by
  unfold runModel
  cases hc : cellValues E hv rows with
  | error e => rfl
  | ok vs =>
    show (Model.init E vs (mp.with al th) >>= _ : Except Stop _) = (Model.init E vs mp >>= _ : Except Stop _)
    rw [init_with]
    cases hi : Model.init E vs mp with
    | error s => rfl
    | ok M =>
      show ((M.with _ _).detect E mp.detector (paramPeriod p) (isLatest m) >>= _ : Except Stop _) =
        (M.detect E mp.detector (paramPeriod p) (isLatest m) >>= _ : Except Stop _)
      rw [detect_with E M _ _ _ _ _ (h vs M hc hi)]
      rfl

/-- what `Model.init` takes from the parameters -/
theorem init_fields {E : Env} {vs : List PyFloat} {mp : ModelParams} {M : Model} (h : Model.init E vs mp = .ok M) :
    vs.mapM finite? = some M.values ∧ M.mode = mp.fillMode.getD .auto ∧ M.gran = mp.granularity ∧
      M.interval = (mp.interval.getD 1).toNat ∧ M.alpha = mp.alpha.getD (.fin (5 / 100)) ∧
      M.threshold = mp.threshold.getD (.fin (35 / 10)) := by
  unfold Model.init at h
  split at h
  · cases h
  · rename_i values hv
    split at h
    · split at h
      · cases h
      · rename_i l _ idx _
        obtain ⟨P, -, h⟩ := ebind_ok.1 h
        cases h
        exact ⟨hv, rfl, rfl, rfl, rfl, rfl⟩
    · cases h

/-- the two requests have the same effect if the parsed parameters differ in `alpha` and `threshold` only and the model does not use the difference -/
theorem predict_swap {E : Env} (hE : E.WF) (W : Wild) (d : Detector) (data : DataArg) {p q : Params}
    (hk : k ∉ ["period", "sensitivity", "boundaryVersion", "detect_mode"]) (hno : p "indices" = none) (hf : FiniteFill E data p)
    (hpq : Off k a b p q) {R : ParseResult → ParseResult → Prop} (hs : SimV k a b R (parseArg E data) (parseArg E data))
    (hR : ∀ r r' p', R r r' → data = .frame r.hasTs r.hasValue r.rows → Parsed E r.hasTs r.hasValue r.rows p p' r.mp →
      ∃ al th, SameBut r r' al th ∧ ∀ last vs M, cellValues E r.hasValue r.rows = .ok vs → Model.init E vs r.mp = .ok M →
        (M.with (al.getD (.fin (5 / 100))) (th.getD (.fin (35 / 10)))).select E (paramPeriod p') last =
          M.select E (paramPeriod p') last) :
    (predict E W d data p).outcome = (predict E W d data q).outcome ∧
      (predict E W d data p).detector = (predict E W d data q).detector ∧
      Off k a b (predict E W d data p).params (predict E W d data q).params := by
  simp only [List.mem_cons, List.not_mem_nil, or_false, not_or] at hk
  obtain ⟨k1, k2, k3, k4⟩ := hk
  obtain ⟨e1, e2⟩ := hs p q hpq
  unfold predict
  rcases h1 : parseArg E data p with ⟨p', x⟩
  rcases h2 : parseArg E data q with ⟨q', y⟩
  rw [h1, h2] at e1 e2
  simp only at e1 e2
  cases e1 with
  | early c => exact ⟨rfl, rfl, e2⟩
  | err e c => exact ⟨rfl, rfl, e2⟩
  | ok h =>
    rename_i r r'
    obtain ⟨hd, hp⟩ := parseArg_ok h1
    obtain ⟨al, th, ⟨a1, a2, a3, a4, a5⟩, hsel⟩ := hR r r' p' h hd hp
    simp only
    unfold afterParse
    have hmd : currentMode (d.update (some r'.code)).mode q' = currentMode (d.update (some r.code)).mode p' := by
      rw [a4]
      unfold currentMode
      rw [e2.same "detect_mode" (Ne.symm k4)]
    rw [hmd, a4]
    cases hm : currentMode (d.update (some r.code)).mode p' with
    | none => exact ⟨rfl, rfl, e2⟩
    | some m =>
      simp only
      have hr : runModel E m r'.hasTs r'.hasValue r'.rows r'.mp q' = runModel E m r.hasTs r.hasValue r.rows r.mp p' := by
        rw [a1, a2, a3, a5, ← runModel_congr (e2.same "period" (Ne.symm k1)) (e2.same "sensitivity" (Ne.symm k2))
          (e2.same "boundaryVersion" (Ne.symm k3)), runModel_with E m _ _ _ _ _ _ _ (hsel (isLatest m))]
      rw [hr]
      have := parsed_modelled hE hp hno (hd ▸ hf) m
      cases hx : runModel E m r.hasTs r.hasValue r.rows r.mp p' with
      | ok items => exact ⟨rfl, rfl, e2⟩
      | error s =>
        cases s with
        | err e => exact ⟨rfl, rfl, e2⟩
        | unmodelled => exact absurd hx this

/-- the parsed period -/
theorem paramPeriod_named {E : Env} {hasTs hasValue : Bool} {rows : List (PyVal × PyVal)} {p p' : Params} {mp : ModelParams}
    (hp : Parsed E hasTs hasValue rows p p' mp) {n : Int} (h : NamesPeriod p n) : 0 ≤ n ∧ paramPeriod p' = some n.toNat := by
  obtain ⟨v, hv, hn⟩ := h
  have hi : v.asInt? = some n := by cases hn <;> rfl
  refine ⟨?_, ?_⟩
  · rcases hp.period with h | ⟨v', i, h, h', h0⟩
    · rw [hv] at h; cases h
    · rw [hv] at h
      cases h
      rw [hi] at h'
      cases h'
      exact h0
  · unfold paramPeriod
    rw [hp.frame "period" (by decide), hv]
    cases hn <;> rfl

/-- steps of an hour or more, in the terms of the model -/
theorem not_fine {E : Env} {hasTs hasValue : Bool} {rows : List (PyVal × PyVal)} {p p' : Params} {mp : ModelParams}
    (hp : Parsed E hasTs hasValue rows p p' mp) (h : ¬ FineGrained p) (l : List ℚ) :
    shouldTriggerSr E mp.granularity ((mp.interval.getD 1).toNat : Int) l = false := by
  unfold shouldTriggerSr
  simp only [Bool.and_eq_false_iff, Bool.or_eq_false_iff, decide_eq_false_iff_not]
  left
  have key : ∀ s g, g.name = s → g ≠ .none → ∀ n : Int, 1 < n → ¬ (p "granularity" = some (.str s) ∧
      ∀ v i, p "customInterval" = some v → IsInt v i → i < n) → ¬ mp.granularity = g ∨ ¬ ((mp.interval.getD 1).toNat : Int) < n := by
    intro s g hs hg0 n hn h
    by_contra hc
    simp only [not_or, not_not] at hc
    obtain ⟨c1, c2⟩ := hc
    refine h ⟨?_, ?_⟩
    · rcases hp.gran with ⟨-, hg⟩ | ⟨s', hg, ho⟩
      · exact absurd (c1.symm.trans hg) hg0
      · rw [hg, ← hs, ← c1, ofName_mem ho]
    · intro v i hv hi
      rcases hp.interval with ⟨hn, -⟩ | ⟨v', j, hv', hj, h0, hm⟩
      · rw [hv] at hn; cases hn
      · rw [hv] at hv'
        cases hv'
        have : v.asInt? = some i := by cases hi <;> rfl
        rw [this] at hj
        cases hj
        rw [hm] at c2
        simp only [Option.getD_some] at c2
        omega
  unfold FineGrained at h
  rw [not_or] at h
  exact ⟨key _ .minutely rfl (by decide) 60 (by norm_num) h.1, key _ .secondly rfl (by decide) _ (by norm_num) h.2⟩

/-- steps of less than an hour, in the terms of the model -/
theorem is_fine {E : Env} {hasTs hasValue : Bool} {rows : List (PyVal × PyVal)} {p p' : Params} {mp : ModelParams}
    (hp : Parsed E hasTs hasValue rows p p' mp) (h : FineGrained p) {l : List ℚ} (hl : EPS ≤ E.mad l) :
    shouldTriggerSr E mp.granularity ((mp.interval.getD 1).toNat : Int) l = true := by
  have key : ∀ g : Granularity, ∀ n : Int, 1 < n → p "granularity" = some (.str g.name) →
      (∀ v i, p "customInterval" = some v → IsInt v i → i < n) →
      mp.granularity = g ∧ ((mp.interval.getD 1).toNat : Int) < n := by
    intro g n hn hg hi
    refine ⟨?_, ?_⟩
    · rcases hp.gran with ⟨h0, -⟩ | ⟨s, h1, ho⟩
      · rw [hg] at h0; cases h0
      · rw [hg] at h1
        cases h1
        have := ofName_mem ho
        generalize mp.granularity = g' at this
        cases g <;> cases g' <;> first | rfl | exact absurd this (by decide)
    · rcases hp.interval with ⟨-, hm⟩ | ⟨v, j, hv, hj, h0, hm⟩
      · rw [hm]; simpa using hn
      · have hj' : IsInt v j := by
          cases v <;> simp [PyVal.asInt?] at hj
          · rename_i b
            cases b <;> simp at hj <;> subst hj <;> constructor
          · subst hj; constructor
        have := hi v j hv hj'
        rw [hm]
        simp only [Option.getD_some]
        omega
  have hm : decide (|E.mad l| < EPS) = false := by
    simp only [decide_eq_false_iff_not, not_lt]
    exact hl.trans (le_abs_self _)
  unfold shouldTriggerSr
  rw [hm]
  rcases h with ⟨h1, h2⟩ | ⟨h1, h2⟩
  · obtain ⟨e1, e2⟩ := key .minutely 60 (by norm_num) h1 h2
    rw [e1, decide_eq_true e2]; rfl
  · obtain ⟨e1, e2⟩ := key .secondly (60 * 60) (by norm_num) h1 (by simpa using h2)
    rw [e1, decide_eq_true e2]; rfl

/-- **C125** (`threshold`): the option is read by the spectral residual model only. If the request names a period above 1,
or its granularity is not minutes (fewer than 60 at a time) or seconds (fewer than 3600 at a time), then two requests that
differ in nothing but an admissible `threshold` have the same outcome and the same effects. -/
theorem C125_threshold {E : Env} (hE : E.WF) (W : Wild) (d : Detector) (data : DataArg) {p q : Params}
    (hno : p "indices" = none) (hf : FiniteFill E data p) (hpq : ∀ x, x ≠ "threshold" → p x = q x)
    (hp : ThresholdOk (p "threshold")) (hq : ThresholdOk (q "threshold"))
    (h : (∃ n, 1 < n ∧ NamesPeriod p n) ∨ ¬ FineGrained p) :
    (predict E W d data p).outcome = (predict E W d data q).outcome ∧
      (predict E W d data p).detector = (predict E W d data q).detector ∧
      ∀ x, x ≠ "threshold" → (predict E W d data p).params x = (predict E W d data q).params x := by
  obtain ⟨h1, h2, h3⟩ := predict_swap hE W d data (by decide) hno hf ⟨hpq, rfl, rfl⟩ (parseArg_threshold hp hq E data) (by
    rintro r r' p' ⟨th, hr⟩ - hP
    refine ⟨_, th, hr, ?_⟩
    intro last vs M hc hM
    obtain ⟨-, -, m2, m3, m4, -⟩ := init_fields hM
    refine select_with E M _ _ _ _ ?_
    intro n source full hn _ ratio
    rw [← m4]
    refine run_with_threshold E M _ ?_ _ _
    show 1 < n ∨ shouldTriggerSr E M.gran M.interval ((full.map (·.1)).getD M.values) = false
    rcases h with ⟨n', h1, h⟩ | h
    · left
      obtain ⟨-, hn'⟩ := paramPeriod_named hP h
      rw [hn'] at hn
      cases hn
      omega
    · right
      rw [m2, m3]
      exact not_fine hP h _)
  exact ⟨h1, h2, h3.same⟩

/-- the values of the rows are determined -/
theorem values_eq {E : Env} {hasValue : Bool} {rows : List (PyVal × PyVal)} {vs : List PyFloat} {values l : List ℚ}
    (hc : cellValues E hasValue rows = .ok vs) (hv : vs.mapM finite? = some values) (hlen : l.length = rows.length)
    (hrow : ∀ i q, l[i]? = some q → RowValue E.parseFloat rows i q) : values = l := by
  have hvs := mapM_finite_eq hv
  subst hvs
  unfold cellValues at hc
  split at hc
  · have hf := mapM_except_ok hc
    have hl := hf.length_eq
    rw [List.length_map] at hl
    refine List.ext_getElem (by omega) fun i h1 h2 => ?_
    have h3 := (List.forall₂_iff_get.1 hf).2 i (by omega) (by simpa using h1)
    simp only [List.get_eq_getElem, List.getElem_map] at h3
    obtain ⟨c, hc, hr⟩ := hrow i _ (List.getElem?_eq_getElem h2)
    rw [List.getElem?_eq_getElem (by omega)] at hc
    cases hc
    exact reads_unique (cellFloat_reads h3) hr
  · split at hc
    · rename_i h0
      rw [h0] at hlen
      cases values with
      | nil => exact (List.length_eq_zero_iff.1 hlen).symm
      | cons v t => cases hc
    · cases hc

/-- **C125** (`alpha`): the option is not read by the spectral residual model. If the request names a period of at most 1,
its granularity is minutes (fewer than 60 at a time) or seconds (fewer than 3600 at a time), no way of filling gaps is
named, and the values are scattered, then two requests that differ in nothing but an admissible `alpha` have the same outcome
and the same effects. -/
theorem C125_alpha {E : Env} (hE : E.WF) (W : Wild) (d : Detector) (data : DataArg) {p q : Params}
    (hno : p "indices" = none) (hf : FiniteFill E data p) (hpq : ∀ x, x ≠ "alpha" → p x = q x)
    (hp : AlphaOk (p "alpha")) (hq : AlphaOk (q "alpha")) {n : Int} (hn : NamesPeriod p n) (hn1 : n ≤ 1)
    (hg : FineGrained p) (hfill : NoFillMode p) (hs : Scattered E.parseFloat E.gaussC data) :
    (predict E W d data p).outcome = (predict E W d data q).outcome ∧
      (predict E W d data p).detector = (predict E W d data q).detector ∧
      ∀ x, x ≠ "alpha" → (predict E W d data p).params x = (predict E W d data q).params x := by
  obtain ⟨h1, h2, h3⟩ := predict_swap hE W d data (by decide) hno hf ⟨hpq, rfl, rfl⟩ (parseArg_alpha hp hq E data) (by
    rintro r r' p' ⟨al, hr⟩ hd hP
    refine ⟨al, _, hr, ?_⟩
    intro last vs M hc hM
    obtain ⟨m0, m1, m2, m3, -, m5⟩ := init_fields hM
    refine select_with E M _ _ _ _ ?_
    intro n' source full hn' hfull ratio
    obtain ⟨-, hper⟩ := paramPeriod_named hP hn
    rw [hper] at hn'
    cases hn'
    have hle : ¬ 1 < n.toNat := by omega
    have hauto : M.mode = .auto := by
      rw [m1]
      have hnone : ∀ key, (p key = none ∨ p key = some .none) → presentKey p key = none := by
        intro key h
        unfold presentKey
        rcases h with h | h <;> rw [h]
      rcases hP.fill with ⟨s, h, -⟩ | ⟨-, -, h⟩ | ⟨s, -, h, -⟩
      · rw [hnone _ hfill.1] at h; cases h
      · cases h' : r.mp.fillMode with
        | none => rfl
        | some x => rw [h'] at h; cases h
      · rw [hnone _ hfill.2] at h; cases h
    have hnof : full = none := by
      unfold Model.usedSeries at hfull
      rw [if_neg (by simp [hle]), if_neg (by simp [hle, hauto])] at hfull
      cases hfull
      rfl
    subst hnof
    have hmad : EPS ≤ E.mad M.values := by
      rw [hd] at hs
      obtain ⟨l, med, mad, hlen, hrow, hmed, hmd, hge⟩ := hs
      have hl : M.values = l := values_eq hc m0 hlen hrow
      rw [hl]
      have hne : l ≠ [] := by
        rintro rfl
        exact hP.nonempty hlen.symm
      obtain ⟨med', mad', h1, h2, h3⟩ := mad_spec E hne
      cases h1.unique hmed
      cases h2.unique hmd
      rw [h3]
      unfold EPS
      norm_num at hge ⊢
      exact hge
    have hsr : shouldTriggerSr E M.gran M.interval M.values = true := by
      rw [m2, m3]
      exact is_fine hP hg hmad
    rw [← m5]
    exact run_with_alpha E M _ hle hsr _ _)
  exact ⟨h1, h2, h3.same⟩

/-! ### both options matter where they are read -/

/-- the anomaly flags of an answer -/
def flaggedIn (r : CallResult) : Option (List Bool) :=
  match r.outcome with
  | .ok l => some (l.map (·.anom))
  | .error _ => none

/-- a request with a granularity, a period, and perhaps one more option -/
def optParams (g : String) (n : Int) (o : List (String × PyVal)) : Params :=
  Params.ofList ([("granularity", .str g), ("period", .int n)] ++ o)

/-- **C125** (the conditions are needed): with steps of less than an hour and no period, the flags depend on `threshold`. -/
theorem C125_threshold_used : ∃ (E : Env) (rows : List (PyVal × PyVal)) (t : PyFloat), E.WF ∧
    (flaggedIn (predict E demoWild entireDetector (.frame true true rows) (optParams "secondly" 0 []))).isSome = true ∧
    (flaggedIn (predict E demoWild entireDetector (.frame true true rows) (optParams "secondly" 0 [("threshold", .float t)]))).isSome = true ∧
    flaggedIn (predict E demoWild entireDetector (.frame true true rows) (optParams "secondly" 0 [])) ≠
      flaggedIn (predict E demoWild entireDetector (.frame true true rows) (optParams "secondly" 0 [("threshold", .float t)])) := by
  refine ⟨demoEnv, demoRows demoSeries, .fin 1000, demoEnv_WF, ?_, ?_, ?_⟩ <;> decide +kernel

/-- a library whose critical values depend on `alpha` -/
def strictEnv : Env := { demoEnv with esdValue := fun _ al _ => al }

theorem strictEnv_WF : strictEnv.WF := { demoEnv_WF with }

/-- **C125** (the conditions are needed): the other models depend on `alpha`. -/
theorem C125_alpha_used : ∃ (E : Env) (rows : List (PyVal × PyVal)) (al : PyFloat), E.WF ∧
    (flaggedIn (predict E demoWild entireDetector (.frame true true rows) (optParams "none" 0 []))).isSome = true ∧
    (flaggedIn (predict E demoWild entireDetector (.frame true true rows) (optParams "none" 0 [("alpha", .float al)]))).isSome = true ∧
    flaggedIn (predict E demoWild entireDetector (.frame true true rows) (optParams "none" 0 [])) ≠
      flaggedIn (predict E demoWild entireDetector (.frame true true rows) (optParams "none" 0 [("alpha", .float al)])) := by
  refine ⟨strictEnv, demoRows [1, 2, 3, 4, 5, 6, 7, 8, 9, 10, 11, 100, 13, 14], .fin 1000, strictEnv_WF, ?_, ?_, ?_⟩ <;> decide +kernel

/-- `C125_threshold` with a period and steps of seconds: the answer is a list -/
example : ∃ items, (predict demoEnv demoWild entireDetector demoData (optParams "secondly" 3 [])).outcome = .ok items ∧
    (predict demoEnv demoWild entireDetector demoData (optParams "secondly" 3 [("threshold", .float (.fin 1000))])).outcome = .ok items := by
  have h := (C125_threshold demoEnv_WF demoWild entireDetector demoData (p := optParams "secondly" 3 [])
    (q := optParams "secondly" 3 [("threshold", .float (.fin 1000))]) (by rfl)
    (.inl ⟨(by intro h; cases h), fun f h => by cases h⟩)
    (fun x hx => by simp [optParams, Params.ofList, Params.set, hx]) (.inl (by rfl)) (.inr ⟨_, by rfl⟩)
    (.inl ⟨3, by decide, .int 3, by rfl, .int 3⟩)).1
  have ho : (flaggedIn (predict demoEnv demoWild entireDetector demoData (optParams "secondly" 3 []))).isSome = true := by decide +kernel
  rw [← h]
  unfold flaggedIn at ho
  split at ho
  · rename_i l hl
    exact ⟨l, hl, hl⟩
  · cases ho

/-- `C125_threshold` without a period, for a granularity that is not fine -/
example (d : Detector) (data : DataArg) (t : PyFloat) :
    (predict demoEnv demoWild d data (optParams "daily" 0 [])).outcome =
      (predict demoEnv demoWild d data (optParams "daily" 0 [("threshold", .float t)])).outcome :=
  (C125_threshold demoEnv_WF demoWild d data (by rfl) (.inl ⟨(by intro h; cases h), fun f h => by cases h⟩)
    (fun x hx => by simp [optParams, Params.ofList, Params.set, hx]) (.inl (by rfl)) (.inr ⟨_, by rfl⟩)
    (.inr (by rintro (⟨h, -⟩ | ⟨h, -⟩) <;> exact absurd h (by simp [optParams, Params.ofList, Params.set])))).1

/-- a series of half zeros and half tens -/
def halves : List Int := [0, 10, 0, 10, 0, 10, 0, 10, 0, 10, 0, 10, 0, 10]

theorem halves_scattered : Scattered strictEnv.parseFloat strictEnv.gaussC (.frame true true (demoRows halves 60)) := by
  refine ⟨halves.map fun i : Int => (i : ℚ), npMedian (halves.map fun i : Int => (i : ℚ)),
    npMedian ((halves.map fun i : Int => (i : ℚ)).map fun x => |x - npMedian (halves.map fun i : Int => (i : ℚ))|), by decide, ?_,
    isMedian_npMedian (by decide), isMedian_npMedian (by decide), by decide +kernel⟩
  intro i q h
  have hi : i < 14 := by
    by_contra hc
    rw [List.getElem?_eq_none (by simpa [halves] using hc)] at h
    cases h
  rw [List.getElem?_map] at h
  interval_cases i <;> (cases h; exact ⟨_, rfl, .int (.int _)⟩)

/-- `C125_alpha`: the answer is a list -/
example : ∃ items, (predict strictEnv demoWild entireDetector (.frame true true (demoRows halves 60)) (optParams "minutely" 1 [])).outcome = .ok items ∧
    (predict strictEnv demoWild entireDetector (.frame true true (demoRows halves 60)) (optParams "minutely" 1 [("alpha", .int 7)])).outcome = .ok items := by
  have h := (C125_alpha strictEnv_WF demoWild entireDetector (.frame true true (demoRows halves 60)) (p := optParams "minutely" 1 [])
    (q := optParams "minutely" 1 [("alpha", .int 7)]) (by rfl) (.inl ⟨(by intro h; cases h), fun f h => by cases h⟩)
    (fun x hx => by simp [optParams, Params.ofList, Params.set, hx]) (.inl (by rfl))
    (.inr ⟨.int 7, .fin 7, by rfl, .int (.int 7), by decide⟩) (n := 1) ⟨.int 1, by rfl, .int 1⟩ (by decide)
    (.inl ⟨by rfl, fun v i h => by cases h⟩) ⟨.inl (by rfl), .inl (by rfl)⟩ halves_scattered).1
  have ho : (flaggedIn (predict strictEnv demoWild entireDetector (.frame true true (demoRows halves 60))
    (optParams "minutely" 1 []))).isSome = true := by decide +kernel
  rw [← h]
  unfold flaggedIn at ho
  split at ho
  · rename_i l hl
    exact ⟨l, hl, hl⟩
  · cases ho

end Verif
