import Verif.Props.Answered
import Verif.Props.Sparse

/-!
# imputeMode='fixed' on a series with gaps

The constant is lost on the way (`C30_fixed_constant_lost`), the gaps become `None`, and detecting a period fails.
-/

namespace Verif

open Spec

/-- **C30**: a valid request with imputeMode 'fixed', gaps in the series (at most half of the grid) and no period raises TypeError. -/
theorem C30_fixed_gaps {E : Env} (hE : E.WF) {W : Wild} {d : Detector} {hasTs hasValue : Bool}
    {rows : List (PyVal × PyVal)} {params : Params} (ha : Admissible params) (hd : NoDetector params)
    {g : Granularity} {o : Option Int} {vs : List PyFloat} {idx : List Int} (hg : GranularityOf params g)
    (ho : IntervalOf params o) (hv : Validated E hasTs hasValue rows g o vs idx)
    (hmode : d.mode.isNone = false ∨ ∃ m, params "detect_mode" = some m) (hs : idx.Pairwise (· < ·))
    (hfix : params "imputeMode" = some (.str "fixed")) (hper : Absent params "period")
    (hgap : (rows.length : Int) < idx.getLastD 0 + 1) (hdense : idx.getLastD 0 + 1 ≤ 2 * (rows.length : Int)) :
    (predict E W d (.frame hasTs hasValue rows) params).outcome = .error .typeError := by
  obtain ⟨p', r, hr, r1, r2, r3, r4, r5, r6, r7, -⟩ := parseArg_complete ha hd hg ho hv
  obtain ⟨f1, f2⟩ := C30_fixed_constant_lost hfix hr
  obtain ⟨-, hP⟩ := parseArg_ok hr
  obtain ⟨hl1, hl2⟩ := validated_len hE hv
  have h0 := validated_head hE hv
  have hne : idx ≠ [] := by
    rintro rfl
    simp at h0
  obtain ⟨m, hm⟩ : ∃ m, currentMode d.mode p' = some m := by
    unfold currentMode
    rcases hmode with h | ⟨m, h⟩
    · rw [h]; exact ⟨_, rfl⟩
    · split
      · rw [hP.frame _ (by decide)]; exact ⟨m, h⟩
      · exact ⟨_, rfl⟩
  obtain ⟨l, hl, rfl⟩ := mapM_finite fun v hv' => (hv.toValuesOk.finite v hv').imp fun _ h => h.1
  rw [List.length_map] at hl1
  obtain ⟨P, hP2⟩ := init_complete (vs := l) (by omega) hs h0
  have hM : ∃ M, Model.init E (l.map .fin) r.mp = .ok M ∧ M.fill = P ∧ M.values = l := by
    unfold Model.init
    rw [hl, r1]
    unfold PyVal.ofIntList
    simp only [PyVal.asIntList?_map, hP2]
    exact ⟨_, rfl, rfl, rfl⟩
  obtain ⟨M, hM, hMf, hMv⟩ := hM
  have hc := modelInit_ok hM
  obtain ⟨hgood, hidx, hPv⟩ := FillProc.init_good hne hP2
  have hall := allCount_last hne hP2
  have hlen := hgood.len
  rw [hPv] at hlen
  have hlo := hv.lo
  have hhi := hv.hi
  have hneed : M.fill.need = true := by
    rw [hMf]
    exact hgood.need.2 ⟨by omega, by omega⟩
  have hpp : paramPeriod p' = none := by
    have e : paramPeriod p' = paramPeriod params := by
      unfold paramPeriod
      rw [hP.frame _ (by decide)]
    rw [e]
    unfold paramPeriod
    unfold Absent at hper
    rw [hper]
    rfl
  have hratio : ¬ 1 / 2 < M.fill.missingRatio := by
    rw [hMf, sparse_iff hne hP2]
    have : idx.length = l.length := by rw [hidx, List.length_map, hlen]
    omega
  have hnone : ∀ s, noneError M.fill.allCount M.gran M.interval s = .typeError := by
    intro s
    unfold noneError
    rw [hMf, if_neg (show ¬ P.allCount < 12 by omega)]
    split <;> rfl
  have hsel : M.select E none (isLatest m) = .error (.err .typeError) := by
    unfold Model.select Model.usedPeriod
    dsimp only
    rw [if_neg hratio]
    unfold Model.detectPeriod
    rw [if_pos ⟨by rw [hc.mode, f1]; rfl, hneed, by rw [hc.fixed, f2]⟩, hnone]
    rfl
  have hrun : runModel E m r.hasTs r.hasValue r.rows r.mp p' = .error (.err .typeError) := by
    unfold runModel
    rw [r5, r7, hv.values, r4]
    simp only [lift, hM, Bind.bind, Except.bind]
    rw [hpp]
    unfold Model.detect
    simp only [hsel, Bind.bind, Except.bind]
  unfold predict
  have hr : parseArg E (.frame hasTs hasValue rows) params = (p', .ok r) := hr
  rw [hr]
  simp only
  rw [afterParse_outcome (d := d.update (some r.code)) (m := m) hm (by rw [hrun]; exact modelled_err _), hrun]
  rfl

/-- a series with one missing second: with imputeMode 'zero' it is answered, with 'fixed' it is not -/
example : okLen (predict demoEnv demoWild entireDetector (.frame true true lateRows) (Params.ofList
      [("granularity", .str "secondly"), ("imputeMode", .str "zero")])) = some 14 ∧
    (predict demoEnv demoWild entireDetector (.frame true true lateRows) (Params.ofList
      [("granularity", .str "secondly"), ("imputeMode", .str "fixed"), ("imputeFixedValue", .int 0)])).outcome = .error .typeError := by
  constructor
  · decide +kernel
  · refine C30_fixed_gaps demoEnv_WF ?_ ?_ (.inr ⟨"secondly", by simp [Params.ofList, Params.set], by decide⟩)
      (.inl ⟨by simp [Params.ofList, Params.set], rfl⟩) lateRows_validated (.inl rfl) (by decide) ?_ ?_ (by decide) (by decide)
    · rw [admissible_iff]
      simp [checks, Params.ofList, Params.set, Absent, AbsentOrNone, granularityNames, fillNames]
      exact ⟨_, .int (.int 0)⟩
    all_goals simp [NoDetector, Params.ofList, Params.set, Absent]

end Verif
