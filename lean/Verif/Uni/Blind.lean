import Verif.Uni.Inv

/-!
# Dependence of the request parser on single keys

Two dicts that differ only at a key the parser does not read are parsed alike.
-/

namespace Verif

open PM

/-- `p` and `p'` agree except at `k`, where they hold `a` and `b` -/
structure Off (k : String) (a b : Option PyVal) (p p' : Params) : Prop where
  same : ∀ x, x ≠ k → p x = p' x
  left : p k = a
  right : p' k = b

/-- `x` gives the same result on dicts that differ only at `k`, and leaves that difference alone -/
def Sim {α} (k : String) (a b : Option PyVal) (x : PM α) : Prop :=
  ∀ p p', Off k a b p p' → (x p).2 = (x p').2 ∧ Off k a b (x p).1 (x p').1

variable {k : String} {a b : Option PyVal}

theorem sim_pure {α} (c : α) : Sim k a b (Pure.pure c : PM α) := fun _ _ h => ⟨rfl, h⟩
theorem sim_early {α} (c : String) : Sim k a b (PM.early c : PM α) := fun _ _ h => ⟨rfl, h⟩
theorem sim_earlyNoCode {α} : Sim k a b (PM.earlyNoCode : PM α) := fun _ _ h => ⟨rfl, h⟩
theorem sim_throw {α} (e : PyErr) (c : CodeUpdate) : Sim k a b (PM.throw e c : PM α) := fun _ _ h => ⟨rfl, h⟩

theorem sim_set {j : String} (hj : k ≠ j) (v : PyVal) : Sim k a b (PM.set j v) := by
  intro p p' h
  refine ⟨rfl, ?_, ?_, ?_⟩
  · intro x hx
    show p.set j v x = p'.set j v x
    unfold Params.set
    split
    · rfl
    · exact h.same x hx
  · show p.set j v k = a
    rw [Params.set_ne _ _ hj, h.left]
  · show p'.set j v k = b
    rw [Params.set_ne _ _ hj, h.right]

theorem sim_bind {α β} {x : PM α} {f : α → PM β} (hx : Sim k a b x) (hf : ∀ c, Sim k a b (f c)) :
    Sim k a b (x >>= f) := by
  intro p p' h
  obtain ⟨h1, h2⟩ := hx p p' h
  show (PM.bind x f p).2 = (PM.bind x f p').2 ∧ Off k a b (PM.bind x f p).1 (PM.bind x f p').1
  unfold PM.bind
  rcases e : x p with ⟨q, r⟩
  rcases e' : x p' with ⟨q', r'⟩
  rw [e, e'] at h1 h2
  simp only at h1 h2
  subst h1
  cases r with
  | ok c => exact hf c q q' h2
  | early c => exact ⟨rfl, h2⟩
  | err e c => exact ⟨rfl, h2⟩

/-- reading the dict is harmless if the continuation looks at other keys only -/
theorem sim_get {β} {f : Params → PM β} (hf : ∀ p p', Off k a b p p' → f p = f p' ∧ Sim k a b (f p')) :
    Sim k a b (PM.get >>= f) := by
  intro p p' h
  obtain ⟨h1, h2⟩ := hf p p' h
  show (f p p).2 = (f p' p').2 ∧ Off k a b (f p p).1 (f p' p').1
  rw [h1]
  exact h2 p p' h

/-- reads one key and otherwise only continues -/
local macro "sim_leaves" : tactic =>
  `(tactic| repeat' first
      | exact sim_pure _ | exact sim_early _ | exact sim_throw _ _ | exact sim_earlyNoCode
      | (refine sim_bind ?_ (fun _ => ?_)) | (refine sim_set ?_ _; first | assumption | (symm; assumption))
      | split)

theorem sim_granularity (h1 : k ≠ "granularity") : Sim k a b parseGranularity := by
  refine sim_get fun p p' h => ?_
  rw [h.same _ h1.symm]
  refine ⟨rfl, ?_⟩
  sim_leaves

theorem sim_interval (h1 : k ≠ "customInterval") : Sim k a b parseInterval := by
  refine sim_get fun p p' h => ?_
  rw [h.same _ h1.symm]
  refine ⟨rfl, ?_⟩
  sim_leaves

theorem sim_period (h1 : k ≠ "period") : Sim k a b parsePeriod := by
  refine sim_get fun p p' h => ?_
  rw [h.same _ h1.symm]
  refine ⟨rfl, ?_⟩
  sim_leaves

theorem sim_alpha (h1 : k ≠ "alpha") : Sim k a b parseAlpha := by
  refine sim_get fun p p' h => ?_
  rw [h.same _ h1.symm]
  refine ⟨rfl, ?_⟩
  sim_leaves

theorem sim_ratio (h1 : k ≠ "maxAnomalyRatio") : Sim k a b parseRatio := by
  refine sim_get fun p p' h => ?_
  rw [h.same _ h1.symm]
  refine ⟨rfl, ?_⟩
  sim_leaves

theorem sim_sensitivity (h1 : k ≠ "sensitivity") : Sim k a b parseSensitivity := by
  refine sim_get fun p p' h => ?_
  rw [h.same _ h1.symm]
  refine ⟨rfl, ?_⟩
  sim_leaves

theorem sim_threshold (h1 : k ≠ "threshold") : Sim k a b parseThreshold := by
  refine sim_get fun p p' h => ?_
  rw [h.same _ h1.symm]
  refine ⟨rfl, ?_⟩
  sim_leaves

theorem sim_default {j : String} (h1 : k ≠ j) : Sim k a b (parseDefaultFalse j) := by
  refine sim_get fun p p' h => ?_
  rw [h.same _ h1.symm]
  refine ⟨rfl, ?_⟩
  sim_leaves

theorem Off.present {p p' : Params} (h : Off k a b p p') {j : String} (hj : k ≠ j) :
    presentKey p j = presentKey p' j := presentKey_congr (h.same j hj.symm)

theorem sim_fill (h1 : k ≠ "imputeMode") (h2 : k ≠ "imputeFixedValue") (h3 : k ≠ "fillUpMode")
    (h4 : k ≠ "fixedValue") : Sim k a b parseFill := by
  refine sim_get fun p p' h => ?_
  rw [h.present h1, h.present h3, h.same _ h2.symm, h.same _ h4.symm]
  refine ⟨rfl, ?_⟩
  sim_leaves

theorem sim_boundary (h1 : k ≠ "boundaryVersion") (h2 : k ≠ "need_trend") : Sim k a b parseBoundary := by
  refine sim_get fun p p' h => ?_
  unfold boundaryName
  rw [h.present h1]
  refine ⟨rfl, ?_⟩
  sim_leaves

theorem sim_detector (h1 : k ≠ "detector") : Sim k a b parseDetector := by
  refine sim_get fun p p' h => ?_
  rw [h.same _ h1.symm]
  refine ⟨rfl, ?_⟩
  sim_leaves

theorem sim_validator (h1 : k ≠ "indices") (h2 : k ≠ "period") (E : Env) (hasTs hasValue : Bool)
    (rows : List (PyVal × PyVal)) (g : Granularity) (interval : Option Int) :
    Sim k a b (seriesValidator E hasTs hasValue rows g interval) := by
  unfold seriesValidator
  split
  · sim_leaves
  split
  · split
    · sim_leaves
    split
    · sim_leaves
    split
    · sim_leaves
    · sim_leaves
    · refine sim_bind (sim_set h1 _) fun _ => sim_get fun p p' h => ?_
      unfold paramPeriod
      rw [h.same _ h2.symm]
      refine ⟨rfl, ?_⟩
      sim_leaves
  · sim_leaves

theorem sim_indices (h1 : k ≠ "indices") (h2 : k ≠ "period") (E : Env) (hasTs hasValue : Bool)
    (rows : List (PyVal × PyVal)) (g : Granularity) (interval : Option Int) :
    Sim k a b (parseIndices E hasTs hasValue rows g interval) := by
  refine sim_bind (sim_validator h1 h2 _ _ _ _ _ _) fun _ => sim_get fun p p' h => ?_
  rw [h.same _ h1.symm]
  refine ⟨rfl, ?_⟩
  sim_leaves

/-- the keys `parse_arg` reads or writes, `sensitivity` and `imputeFixedValue` apart -/
def parsedKeys : List String :=
  ["granularity", "customInterval", "period", "alpha", "maxAnomalyRatio", "threshold", "needDetectorId",
   "imputeMode", "fillUpMode", "fixedValue", "needFillUpConfirm", "needSpectrumPeriod",
   "boundaryVersion", "need_trend", "detector", "indices"]

theorem sim_parseArg (hk : k ∉ parsedKeys) (hs : Sim k a b parseSensitivity) (hf : Sim k a b parseFill) (E : Env) (data : DataArg) :
    Sim k a b (parseArg E data) := by
  simp only [parsedKeys, List.mem_cons, List.not_mem_nil, or_false, not_or] at hk
  obtain ⟨k1, k2, k3, k4, k5, k6, k7, k8, k9, k10, k11, k12, k13, k14, k15, k16⟩ := hk
  unfold parseArg
  split
  · exact sim_earlyNoCode
  · exact sim_earlyNoCode
  · exact sim_throw _ _
  split
  · exact sim_earlyNoCode
  refine sim_bind (sim_granularity k1) fun _ => sim_bind (sim_interval k2) fun _ => sim_bind (sim_period k3) fun _ =>
    sim_bind (sim_alpha k4) fun _ => sim_bind (sim_ratio k5) fun _ => sim_bind hs fun _ =>
    sim_bind (sim_threshold k6) fun _ => sim_bind (sim_default k7) fun _ =>
    sim_bind hf fun _ => sim_bind (sim_default k11) fun _ =>
    sim_bind (sim_default k12) fun _ => sim_bind (sim_boundary k13 k14) fun _ =>
    sim_bind (sim_detector k15) fun _ => sim_bind (sim_indices k16 k3 _ _ _ _ _ _) fun _ => sim_pure _

/-- numbers in `imputeFixedValue` are parsed alike -/
theorem sim_fill_values {v w : PyVal} {f g : PyFloat} (hv : v.asNumber? = some f) (hw : w.asNumber? = some g) :
    Sim "imputeFixedValue" (some v) (some w) parseFill := by
  refine sim_get fun p p' h => ?_
  rw [h.present (j := "imputeMode") (by decide), h.present (j := "fillUpMode") (by decide),
    h.same "fixedValue" (by decide), h.left, h.right]
  simp only [Option.bind_some, hv, hw, true_and]
  sim_leaves

/-- admissible sensitivities are parsed alike -/
theorem sim_sensitivity_values {v w : PyVal} {s t : Int} (hv : v.asInt? = some s) (hs : 0 ≤ s ∧ s ≤ 100)
    (hw : w.asInt? = some t) (ht : 0 ≤ t ∧ t ≤ 100) :
    Sim "sensitivity" (some v) (some w) parseSensitivity := by
  have key : ∀ {p : Params} {v : PyVal} {s : Int}, p "sensitivity" = some v → v.asInt? = some s → 0 ≤ s → s ≤ 100 →
      parseSensitivity p = (p, .ok ()) := by
    intro p v s h1 h2 h3 h4
    show (match p "sensitivity" with
      | none => PM.set "sensitivity" (.int 99)
      | some v => match v.asInt? with
        | some i => if i < 0 ∨ 100 < i then PM.early "InvalidModelArgument" else Pure.pure ()
        | none => PM.early "InvalidModelArgument" : PM Unit) p = _
    rw [h1]
    simp only [h2]
    rw [if_neg (by omega)]
    rfl
  intro p p' h
  rw [key h.left hv hs.1 hs.2, key h.right hw ht.1 ht.2]
  exact ⟨rfl, h⟩

/-- the ways `predict` returns a list -/
theorem predict_cases {E : Env} {W : Wild} {d : Detector} {data : DataArg} {params : Params} {items : List Item}
    (h : (predict E W d data params).outcome = .ok items) :
    ∃ p' r m, parseArg E data params = (p', .ok r) ∧ currentMode d.mode p' = some m ∧
      (runModel E m r.hasTs r.hasValue r.rows r.mp p' = .ok items ∨
       (runModel E m r.hasTs r.hasValue r.rows r.mp p' = .error .unmodelled ∧ W.run m r.hasTs r.hasValue r.rows r.mp p' = .ok items)) := by
  unfold predict at h
  split at h
  · cases h
  · cases h
  · rename_i p' r hpa
    unfold afterParse at h
    split at h
    · cases h
    · rename_i m hm
      have hm : currentMode d.mode p' = some m := hm
      split at h
      · rename_i hr
        simp only [Except.ok.injEq] at h
        subst h
        exact ⟨p', r, m, hpa, hm, .inl hr⟩
      · cases h
      · rename_i hr
        exact ⟨p', r, m, hpa, hm, .inr ⟨hr, h⟩⟩

theorem predict_of_run {E : Env} {W : Wild} {d : Detector} {data : DataArg} {params p' : Params} {r : ParseResult}
    {m : PyVal} {items : List Item} (h1 : parseArg E data params = (p', .ok r))
    (h2 : currentMode d.mode p' = some m) (h3 : runModel E m r.hasTs r.hasValue r.rows r.mp p' = .ok items) :
    (predict E W d data params).outcome = .ok items := by
  unfold predict
  rw [h1]
  simp only
  unfold afterParse
  have h2' : currentMode (d.update (some r.code)).mode p' = some m := h2
  rw [h2']
  simp only [h3]

theorem off_set (p : Params) (k : String) (v w : PyVal) : Off k (some v) (some w) (p.set k v) (p.set k w) := by
  refine ⟨fun x hx => ?_, by simp, by simp⟩
  rw [Params.set_ne _ _ hx, Params.set_ne _ _ hx]

end Verif
