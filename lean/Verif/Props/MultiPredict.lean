import Verif.Multi.Run
import Verif.Multi.Fit
import Verif.Multi.DemoNet

/-!
# Multivariate predictions

C48, C49, C51, C52, C53. Statements range over every world a program can reach (`Reachable`): any history of fits, predictions and
loads, successful or not.
-/

namespace Verif

open Multi Spec

section
variable {TS : Type} {E : MEnv TS} {data : MData} {w w' : World} {items : List Multi.Item} {f : Frame} {t : Table} {S : Scorer}
  {tw : Nat} {th : ℚ}

theorem good_after (hE : E.WF) (hw : Reachable E w) (h : Multi.predict E data w = (w', .ok items)) : w'.det.Good := by
  have hg := (predict_holds E data w (hw.good hE)).1
  rw [show (Multi.predict E data w).1 = w' from by rw [h]] at hg
  exact hg.det

theorem answer (hE : E.WF) (hw : Reachable E w) (h : Multi.predict E data w = (w', .ok items))
    (hp : Predicted E w w' data f t S tw th) : Answer S tw th t.names f.index t.rows items :=
  predicted_answer hE (hw.good hE) h hp

theorem table_rows (hE : E.WF) (hp : Predicted E w w' data f t S tw th) : t.rows.length = f.index.length := by
  obtain ⟨P, -, hP⟩ := hp.table
  rw [rows_length, (processed_sizes hE.table hP).1]

/-- **C49** (what a prediction is). Whenever `predict` returns, the argument was a table, the detector holds all that is needed for
scoring, and the table has as many columns as the network has variables and at least `input_size + threshold_window` rows. -/
theorem C49_predicted (hE : E.WF) (hw : Reachable E w) (h : Multi.predict E data w = (w', .ok items)) :
    ∃ f t S tw th, Predicted E w w' data f t S tw th ∧ t.names.length = S.dim ∧ tw + S.input ≤ f.index.length := by
  have hg := (predict_holds E data w (hw.good hE)).1
  rw [show (Multi.predict E data w).1 = w' from by rw [h]] at hg
  obtain ⟨f, t, c, base, m, N, pct, th, hdata, -, hfill, hL, hth, -, hA⟩ := Multi.predict_ok hE (hw.good hE) h
  have hp : Predicted E w w' data f t (scorer E.toNumEnv c base m N pct) c.thresholdWindow th :=
    ⟨hdata, hfill, scorer_trained hg.det hL hth⟩
  exact ⟨f, t, _, _, th, hp, hA.names_len, by rw [← table_rows hE hp]; exact hA.enough⟩

/-- **C49** (number of results). A prediction has one result for each of the last rows, all but `input_size + threshold_window - 1`
of them, and there is at least one. -/
theorem C49_count (hE : E.WF) (hw : Reachable E w) (h : Multi.predict E data w = (w', .ok items))
    (hp : Predicted E w w' data f t S tw th) :
    items.length + S.input + tw = f.index.length + 1 ∧ 0 < items.length := by
  have hA := answer hE hw h hp
  have h1 := hA.count
  have h2 := hA.enough
  have h3 := hA.tw_pos
  rw [table_rows hE hp] at h1 h2
  omega

/-- the detector after loading a checkpoint -/
def restored (d : Det) (k : Ckpt) : Det :=
  { d with config := some k.config, model := some ⟨k.config, k.net⟩, pct := k.pct, threshold := k.threshold,
           scoreMax := k.scoreMax, scoreMin := k.scoreMin }

theorem ensureModel_cases (w : World) :
    (∃ w', ensureModel w = (w', .ok ()) ∧ w'.params = w.params ∧ ((∃ m, w.det.model = some m ∧ w' = w) ∨
      w.det.model = none ∧ ∃ p k, w.det.modelPath = some p ∧ w.disk p = .ckpt k ∧
        w' = { w with det := restored w.det k })) ∨
    (ensureModel w = (w, .error (.err .valueError)) ∧ w.det.model = none ∧ ∀ p k, w.det.modelPath = some p → w.disk p ≠ .ckpt k) := by
  unfold ensureModel
  cases hm : w.det.model with
  | some m => exact .inl ⟨w, rfl, rfl, .inl ⟨m, rfl, rfl⟩⟩
  | none =>
    dsimp only
    unfold loadCheckpoint
    rw [MM.run_bind (MM.get_ok.2 ⟨rfl, rfl⟩)]
    cases hp : w.det.modelPath with
    | none => exact .inr ⟨rfl, rfl, by simp⟩
    | some p =>
      dsimp only
      cases hd : w.disk p with
      | missing =>
        refine .inr ⟨rfl, rfl, ?_⟩
        intro p' k hp' hk; cases hp'; rw [hd] at hk; cases hk
      | garbage =>
        refine .inr ⟨rfl, rfl, ?_⟩
        intro p' k hp' hk; cases hp'; rw [hd] at hk; cases hk
      | ckpt k => exact .inl ⟨_, rfl, rfl, .inr ⟨rfl, p, k, rfl, hd, rfl⟩⟩

/-- **C49** (minimum). For a usable request, `predict` raises `ValueError` unless the detector it ends up with is configured and the
table has at least `input_size + threshold_window` rows. -/
theorem C49_minimum (hE : E.WF) {c : Config} (ha : Accepted E w.params f t c)
    (hn : ∀ c', (Multi.predict E (.frame f) w).1.det.config = some c' → f.index.length < c'.inputSize + c'.thresholdWindow)
    (hw : Reachable E w) :
    (Multi.predict E (.frame f) w).2 = .error (.err .valueError) := by
  obtain ⟨sizes, hrun⟩ := processData_run ha
  unfold Multi.predict at hn ⊢
  rw [MM.run_bind hrun] at hn ⊢
  dsimp only at hn ⊢
  have hrows : t.rows.length = f.index.length := by
    obtain ⟨P, -, hP⟩ := ha.filled
    rw [rows_length, (processed_sizes hE.table hP).1]
  have hready := (hw.good hE).det.ready
  rcases ensureModel_cases { w with params := w.params.after sizes t.names.length } with ⟨w2, h2, -, hc2⟩ | ⟨h2, -⟩
  · rw [MM.run_bind h2, MM.run_bind (MM.get_ok.2 ⟨rfl, rfl⟩)] at hn ⊢
    have hcfg : ∃ c', w2.det.config = some c' := by
      rcases hc2 with ⟨m, hm, rfl⟩ | ⟨-, p, k, -, -, rfl⟩
      · exact hready m hm
      · exact ⟨_, rfl⟩
    obtain ⟨c', hc'⟩ := hcfg
    have := hn c' hc'
    show detectWith E w2.det f t = _
    unfold detectWith
    simp only [hc']
    rw [if_pos (by omega)]
  · show (MM.bind ensureModel _ _).2 = _
    unfold MM.bind
    rw [h2]

/-- **C61** (never trained). A detector without network whose save path, if it has one, holds no checkpoint raises `ValueError` for
every usable request. -/
theorem C61_untrained {c : Config} (ha : Accepted E w.params f t c) (hm : w.det.model = none)
    (hd : ∀ p k, w.det.modelPath = some p → w.disk p ≠ .ckpt k) :
    (Multi.predict E (.frame f) w).2 = .error (.err .valueError) := by
  obtain ⟨sizes, hrun⟩ := processData_run ha
  unfold Multi.predict
  rw [MM.run_bind hrun]
  dsimp only
  rcases ensureModel_cases { w with params := w.params.after sizes t.names.length } with ⟨w2, h2, -, hc2⟩ | ⟨h2, -⟩
  · exfalso
    rcases hc2 with ⟨m, hm', -⟩ | ⟨-, p, k, hp, hk, -⟩
    · rw [show w.det.model = some m from hm'] at hm; cases hm
    · exact hd p k hp hk
  · show (MM.bind ensureModel _ _).2 = _
    unfold MM.bind
    rw [h2]

/-- **C61** (no threshold). Right after a checkpoint without threshold was loaded, `predict` returns no result, whatever the table. -/
theorem C61_no_threshold (hE : E.WF) (hw : Reachable E w) {m : NetObj} (hm : w.det.model = some m) (ht : w.det.threshold = none) :
    ∀ w' items, Multi.predict E data w ≠ (w', .ok items) := by
  intro w' items h
  obtain ⟨f, t, S, tw, th, hp, -⟩ := C49_predicted hE hw h
  have h1 := hp.trained.threshold
  unfold Multi.predict at h
  obtain ⟨w1, ⟨f1, t1, c1⟩, hpd, h⟩ := MM.bind_ok.1 (show MM.Returns _ _ _ _ from h)
  obtain ⟨-, -, -, hd1, -, -⟩ := processData_ok hpd
  obtain ⟨w2, _, h2, h⟩ := MM.bind_ok.1 h
  obtain ⟨w3, v, h3, h⟩ := MM.bind_ok.1 h
  obtain ⟨rfl, rfl⟩ := MM.get_ok.1 h3
  obtain ⟨rfl, -⟩ := MM.of_ok.1 h
  rcases ensureModel_cases w1 with ⟨w4, h4, -, hc⟩ | ⟨h4, -⟩
  · rw [MM.Returns, h4] at h2
    cases h2
    rcases hc with ⟨m', -, rfl⟩ | ⟨hn, -⟩
    · rw [hd1, ht] at h1; cases h1
    · rw [hd1, hm] at hn; cases hn
  · rw [MM.Returns, h4] at h2
    cases h2

/-- **C48** (what is scored and how it is labelled). Result `k` carries the label the caller's table has at position `r`, and the
score of row `r` of the table in ascending label order, where `r` counts the results from the end of the table. -/
theorem C48_labels (hE : E.WF) (hw : Reachable E w) (h : Multi.predict E data w = (w', .ok items))
    (hp : Predicted E w w' data f t S tw th) (k : Nat) (hk : k < items.length) :
    f.index[f.index.length - items.length + k]? = some items[k].index ∧
      items[k].score = S.score t.rows (f.index.length - items.length + k) := by
  have hA := answer hE hw h hp
  have hc := C49_count hE hw h hp
  have htw := hA.tw_pos
  have hit := hA.item k hk
  have hr : f.index.length - items.length + k = S.input + (tw - 1) + k := by omega
  rw [hr, hit.label, hit.score]
  refine ⟨?_, rfl⟩
  rw [List.getD_eq_getElem?_getD, List.getElem?_eq_getElem (by omega)]
  rfl

/-- **C48** (ascending labels). If the caller's rows are in ascending label order, every result carries the label of the row it
scores. -/
theorem C48_sorted (hE : E.WF) (hw : Reachable E w) (h : Multi.predict E data w = (w', .ok items))
    (hp : Predicted E w w' data f t S tw th) (hs : f.index.Pairwise (· ≤ ·)) (k : Nat) (hk : k < items.length) :
    ∃ r, r = t.index.length - items.length + k ∧ t.index[r]? = some items[k].index ∧ items[k].score = S.score t.rows r := by
  have h1 := C48_labels hE hw h hp k hk
  obtain ⟨P, -, hP⟩ := hp.table
  have hl := (processed_sizes hE.table hP).1
  refine ⟨_, rfl, ?_, ?_⟩
  · have ht : t.index = f.index := by
      obtain ⟨cols, -, e⟩ : ∃ cols, True ∧ t = ⟨(selectCols (sortIndex E.toTableEnv f) (sortedNames (sortIndex E.toTableEnv f))).index,
          (selectCols (sortIndex E.toTableEnv f) (sortedNames (sortIndex E.toTableEnv f))).cols.map (·.name), cols⟩ := by
        unfold Processor.process at hP
        dsimp only at hP
        split at hP
        · obtain ⟨cols, -, h2⟩ := ebind_ok.1 hP
          rw [epure_ok] at h2
          exact ⟨cols, trivial, h2.symm⟩
        · cases hP
      rw [e]
      show pick f.index 0 (E.indexOrder f.index) = f.index
      have hperm : (pick f.index 0 (E.indexOrder f.index)).Perm f.index := by
        unfold pick
        have := (hE.table.order_perm f.index).map fun i => f.index.getD i 0
        refine this.trans ?_
        have e2 : (List.range f.index.length).map (fun i => f.index.getD i 0) = f.index := by
          apply List.ext_getElem
          · simp
          · intro i h1 h2
            simp [List.getElem?_eq_getElem h2]
        rw [e2]
      exact hperm.eq_of_pairwise (fun a b _ _ h1 h2 => le_antisymm h1 h2) (hE.table.order_sorted f.index) hs
    rw [hl, ht]
    exact h1.1
  · rw [hl]; exact h1.2

/-- **C52** (hard thresholds). A row scoring above `max(0.5, trained threshold)` is an anomaly, and one scoring below
`min(0.3, trained threshold)` is not. -/
theorem C52_hard (hE : E.WF) (hw : Reachable E w) (h : Multi.predict E data w = (w', .ok items))
    (hp : Predicted E w w' data f t S tw th) (it : Multi.Item) (hit : it ∈ items) :
    (max (1 / 2) th < it.score → it.isAnomaly = true) ∧ (it.score < min (3 / 10) th → it.isAnomaly = false) := by
  obtain ⟨k, hk, rfl⟩ := List.mem_iff_getElem.1 hit
  obtain ⟨dyn, -, hd⟩ := ((answer hE hw h hp).item k hk).anomaly
  rw [hd]
  unfold decideAnomaly
  constructor
  · intro h1
    simp only [decide_eq_true h1, Bool.or_true]
  · intro h1
    have h2 : ¬ min (3 / 10) th ≤ items[k].score := not_le.2 h1
    have h3 : ¬ max (1 / 2) th < items[k].score := by
      have : min (3 / 10) th ≤ max (1 / 2) th := (min_le_right _ _).trans (le_max_right _ _)
      linarith
    simp only [decide_eq_false h2, decide_eq_false h3, Bool.and_false, Bool.or_false]

theorem threshold95 {l : List ℚ} (hl : l ≠ []) (hn : l.length < 2 ^ 40) {x : ℚ}
    (h : getThreshold l = .ok x) : Is95 l x := by
  have hp := List.length_pos_of_ne_nil hl
  unfold getThreshold at h
  rw [if_neg (by omega), intMul95 hn, pyIndex_ok (by rw [length_sortQ]; omega)] at h
  cases h
  exact ⟨sortQ l, sortQ_perm l, sortQ_sorted l, List.getElem?_eq_getElem _⟩

/-- **C51** (what the dynamic threshold is). For row `r` there is a value `d`, the 95% order statistic of the scores of the rows
`max(input_size, r - 2(tw-1)), …, r - (tw-1)` where `tw` is the threshold window, and the row is an anomaly exactly when it scores at
least `d` and at least `min(0.3, trained threshold)`, or more than `max(0.5, trained threshold)`. -/
theorem C51_threshold (hE : E.WF) (hw : Reachable E w) (h : Multi.predict E data w = (w', .ok items))
    (hp : Predicted E w w' data f t S tw th) (k : Nat) (hk : k < items.length) :
    ∃ r a d, r = f.index.length - items.length + k ∧ a = max S.input (r - 2 * (tw - 1)) ∧
      Is95 (S.scores t.rows a (r - (tw - 1) + 1 - a)) d ∧ a ≤ r - (tw - 1) ∧
      (items[k].isAnomaly = true ↔
        (d ≤ items[k].score ∧ min (3 / 10) th ≤ items[k].score) ∨ max (1 / 2) th < items[k].score) := by
  have hA := answer hE hw h hp
  have hc := C49_count hE hw h hp
  have htw := hA.tw_pos
  obtain ⟨dyn, hdyn, hd⟩ := (hA.item k hk).anomaly
  have htw' : tw ≤ 200 := by
    obtain ⟨c, hcc, -, e, -⟩ := hp.trained.config
    rw [e]
    exact ((good_after hE hw h).config c hcc).tw_le
  refine ⟨_, _, dyn, rfl, rfl, ?_, ?_, ?_⟩
  · have el : S.scores t.rows (max S.input (f.index.length - items.length + k - 2 * (tw - 1)))
        (f.index.length - items.length + k - (tw - 1) + 1 - max S.input (f.index.length - items.length + k - 2 * (tw - 1))) =
        (List.range' (k + 1 - tw) (k + 1 - (k + 1 - tw))).map fun j => S.score t.rows (S.input + j) := by
      unfold Scorer.scores
      apply List.ext_getElem
      · simp; omega
      · intro j h1 h2
        simp only [List.getElem_map, List.getElem_range, List.getElem_range']
        congr 1
        omega
    rw [el]
    have hN : S.E.WF := by rw [hp.trained.env]; exact hE.num
    refine threshold95 ?_ ?_ hdyn
    · intro he
      have := congrArg List.length he
      simp at this
      omega
    · simp; omega
  · omega
  · rw [hd]
    unfold decideAnomaly
    simp only [Bool.or_eq_true, Bool.and_eq_true, decide_eq_true_eq]

/-! ### severity -/

theorem entry_range (hw : Reachable E w) (hE : E.WF) (h : Multi.predict E data w = (w', .ok items))
    (hp : Predicted E w w' data f t S tw th) (v : Nat) : 0 ≤ entry S.weights v ∧ entry S.weights v ≤ 1 := by
  have hP := (good_after hE hw h).pct S.weights hp.trained.weights
  have key : ∀ i, 0 ≤ S.weights.getD i 0 ∧ S.weights.getD i 0 ≤ 1 := by
    intro i
    by_cases hi : i < S.weights.length
    · rw [List.getD_eq_getElem _ _ hi]
      exact ⟨(hP.2 _ (List.getElem_mem hi)).1.le, (hP.2 _ (List.getElem_mem hi)).2⟩
    · rw [List.getD_eq_default _ _ (by omega)]
      norm_num
  unfold entry
  split <;> exact key _

theorem contribution_range (hE : E.WF) (hw : Reachable E w) (h : Multi.predict E data w = (w', .ok items))
    (hp : Predicted E w w' data f t S tw th) (rows : List (List ℚ)) (r v : Nat) :
    0 ≤ S.contribution rows r v ∧ S.contribution rows r v ≤ S.E.e - 1 := by
  have hN : S.E.WF := by rw [hp.trained.env]; exact hE.num
  obtain ⟨h0, h1⟩ := entry_range hw hE h hp v
  unfold Scorer.contribution
  set y := min (2 * |(S.forecast (S.window rows r)).getD v 0 - S.normed rows r v|) 1
  have hy0 : 0 ≤ y := le_min (by positivity) (by norm_num)
  have hy1 : y ≤ 1 := min_le_right _ _
  have e0 : 1 ≤ S.E.exp y := by rw [← hN.exp_zero]; exact hN.exp_mono hy0
  have e1 : S.E.exp y ≤ S.E.e := (hN.exp_mono hy1).trans hN.exp_one
  constructor
  · exact mul_nonneg (by linarith) h0
  · calc (S.E.exp y - 1) * entry S.weights v ≤ (S.E.exp y - 1) * 1 := mul_le_mul_of_nonneg_left h1 (by linarith)
      _ ≤ S.E.e - 1 := by linarith

theorem score_range (hE : E.WF) (hw : Reachable E w) (h : Multi.predict E data w = (w', .ok items))
    (hp : Predicted E w w' data f t S tw th) (rows : List (List ℚ)) (r : Nat) :
    0 ≤ S.score rows r ∧ S.score rows r ≤ S.E.e - 1 := by
  have hd : (0 : ℚ) < S.dim := by exact_mod_cast (answer hE hw h hp).dim_pos
  have key := contribution_range hE hw h hp rows r
  unfold Scorer.score
  constructor
  · apply div_nonneg _ hd.le
    apply List.sum_nonneg
    intro x hx
    obtain ⟨v, -, rfl⟩ := List.mem_map.1 hx
    exact (key v).1
  · rw [div_le_iff₀ hd]
    have := List.sum_le_card_nsmul ((List.range S.dim).map (S.contribution rows r)) (S.E.e - 1) (by
      intro x hx
      obtain ⟨v, -, rfl⟩ := List.mem_map.1 hx
      exact (key v).2)
    simp only [List.length_map, List.length_range, nsmul_eq_mul] at this
    linarith

/-- **C53** (severity). A score lies between 0 and `e - 1`. The severity is 0 for a row that is no anomaly, and otherwise the score
relative to `e - 1`, so between 0 and 1, and positive if the score is. -/
theorem C53_severity (hE : E.WF) (hw : Reachable E w) (h : Multi.predict E data w = (w', .ok items)) (it : Multi.Item)
    (hit : it ∈ items) :
    (0 ≤ it.score ∧ it.score ≤ E.e - 1) ∧ (it.isAnomaly = false → it.severity = 0) ∧
      (it.isAnomaly = true → it.severity * (E.e - 1) = it.score) ∧ 0 ≤ it.severity ∧ it.severity ≤ 1 ∧
      (it.isAnomaly = true → 0 < it.score → 0 < it.severity) := by
  obtain ⟨f, t, S, tw, th, hp, -⟩ := C49_predicted hE hw h
  obtain ⟨k, hk, rfl⟩ := List.mem_iff_getElem.1 hit
  have hi := (answer hE hw h hp).item k hk
  have hr := score_range hE hw h hp t.rows (S.input + (tw - 1) + k)
  have hs := hi.severity
  rw [← hi.score] at hr
  rw [hp.trained.env] at hr hs
  have he : 0 < E.e - 1 := by linarith [hE.num.e_lower]
  refine ⟨hr, ?_, ?_, ?_, ?_, ?_⟩
  · intro ha; rw [hs, ha]; simp
  · intro ha; rw [hs, ha]; simp only [if_true]; field_simp
  · rw [hs]; split
    · exact div_nonneg hr.1 he.le
    · exact le_refl _
  · rw [hs]; split
    · exact (div_le_one he).2 hr.2
    · norm_num
  · intro ha h0; rw [hs, ha]; simp only [if_true]; exact div_pos h0 he

end

/-! ### concrete runs -/

theorem demo_run : ∃ w' items, Multi.predict (demoE loss0) (.frame demoTest) demoTrained = (w', .ok items) ∧
    items.map (·.index) = [23, 24, 25, 26] ∧ items.map (·.isAnomaly) = [false, true, false, false] ∧
    items.map (·.score) = [20000000000000000 / 80000000600000001, 4 / 5, 20000000000000000 / 80000000600000001, 3 / 5] ∧
    w'.det.config.map (·.thresholdWindow) = some 2 ∧ w'.det.threshold = some (4 / 5) := by
  have h1 : returned (Multi.predict (demoE loss0) (.frame demoTest) demoTrained).2 (fun items =>
      decide (items.map (·.index) = [23, 24, 25, 26] ∧ items.map (·.isAnomaly) = [false, true, false, false] ∧
        items.map (·.score) = [20000000000000000 / 80000000600000001, 4 / 5, 20000000000000000 / 80000000600000001, 3 / 5])) =
      true := by
    decide +kernel
  have h2 : (Multi.predict (demoE loss0) (.frame demoTest) demoTrained).1.det.config.map (·.thresholdWindow) = some 2 ∧
      (Multi.predict (demoE loss0) (.frame demoTest) demoTrained).1.det.threshold = some (4 / 5) := by
    decide +kernel
  obtain ⟨w', items, h, hi⟩ := returned_ok h1
  rw [h] at h2
  obtain ⟨a, b, c⟩ := of_decide_eq_true hi
  exact ⟨w', items, h, a, b, c, h2.1, h2.2⟩

/-- The hypotheses of the theorems of this file are met: a detector trained on ten rows predicts seven rows, and one of the four results
is an anomaly. -/
example : ∃ w' items f t S tw th, Reachable (demoE loss0) demoTrained ∧
    Multi.predict (demoE loss0) (.frame demoTest) demoTrained = (w', .ok items) ∧
    Predicted (demoE loss0) demoTrained w' (.frame demoTest) f t S tw th ∧ f.index.Pairwise (· ≤ ·) ∧ items.length = 4 ∧
    ∃ it ∈ items, it.isAnomaly = true := by
  obtain ⟨w', items, h, hi, ha, -⟩ := demo_run
  obtain ⟨f, t, S, tw, th, hp, -⟩ := C49_predicted (demoE_wf loss0) demoTrained_reachable h
  refine ⟨w', items, f, t, S, tw, th, demoTrained_reachable, h, hp, ?_, ?_, ?_⟩
  · have := hp.data
    cases this
    decide
  · simpa using congrArg List.length hi
  · have : true ∈ items.map (·.isAnomaly) := by rw [ha]; simp
    simpa using this

/-- A usable request with three rows, where four are needed. -/
example : ∃ t c c', Accepted (demoE loss0) demoTrained.params demoShort t c ∧
    (Multi.predict (demoE loss0) (.frame demoShort) demoTrained).1.det.config = some c' ∧
    demoShort.index.length < c'.inputSize + c'.thresholdWindow := by
  obtain ⟨t, c, h⟩ := accepted_demo (E := demoE loss0) (f := demoShort) (w := demoTrained) (by decide +kernel)
  have hc : ((Multi.predict (demoE loss0) (.frame demoShort) demoTrained).1.det.config.map
      fun c => (c.inputSize, c.thresholdWindow)) = some (2, 2) := by decide +kernel
  cases hc' : (Multi.predict (demoE loss0) (.frame demoShort) demoTrained).1.det.config with
  | none => rw [hc'] at hc; cases hc
  | some c' =>
    rw [hc'] at hc
    simp only [Option.map_some, Option.some.injEq, Prod.mk.injEq] at hc
    refine ⟨t, c, c', h, rfl, ?_⟩
    rw [hc.1, hc.2]
    decide

/-- A usable request to a new detector. -/
example : ∃ t c, Accepted (demoE loss0) demoStart.params demoTest t c ∧ demoStart.det.model = none ∧
    ∀ p k, demoStart.det.modelPath = some p → demoStart.disk p ≠ .ckpt k := by
  obtain ⟨t, c, h⟩ := accepted_demo (E := demoE loss0) (f := demoTest) (w := demoStart) (by decide +kernel)
  exact ⟨t, c, h, rfl, fun p k hp => by cases hp⟩

/-- A new detector that loaded the checkpoint written by `fit` has a network and no threshold: `fit` writes it before it computes
the threshold. -/
example : Reachable (demoE loss0) demoReloaded ∧ (∃ m, demoReloaded.det.model = some m) ∧ demoReloaded.det.threshold = none := by
  refine ⟨demoReloaded_reachable, ?_, by decide +kernel⟩
  apply Option.isSome_iff_exists.1
  decide +kernel

/-- **C48** (refuted for other row orders). Two tables with the same labelled rows, the second in descending order: the first run
reports label 24 as the only anomaly, the second reports label 22 as the only anomaly and has no result for label 24. -/
theorem C48_wrong_label : ∃ (E : MEnv Nat) (w : World) (f g : Frame), E.WF ∧ Reachable E w ∧ g.index = f.index.reverse ∧
    g.cols = f.cols.map (fun c => ⟨c.name, c.cells.reverse⟩) ∧
    ∃ w1 w2 items1 items2, Multi.predict E (.frame f) w = (w1, .ok items1) ∧ Multi.predict E (.frame g) w = (w2, .ok items2) ∧
      ((items1.filter (·.isAnomaly)).map (·.index)) = [24] ∧ ((items2.filter (·.isAnomaly)).map (·.index)) = [22] ∧
      24 ∉ items2.map (·.index) := by
  refine ⟨demoE loss0, demoTrained, demoTest, demoReversed, demoE_wf _, demoTrained_reachable, rfl, rfl, ?_⟩
  have h1 : returned (Multi.predict (demoE loss0) (.frame demoTest) demoTrained).2
      (fun items => decide ((items.filter (·.isAnomaly)).map (·.index) = [24])) = true := by decide +kernel
  have h2 : returned (Multi.predict (demoE loss0) (.frame demoReversed) demoTrained).2
      (fun items => decide ((items.filter (·.isAnomaly)).map (·.index) = [22] ∧ 24 ∉ items.map (·.index))) = true := by
    decide +kernel
  obtain ⟨w1, items1, r1, c1⟩ := returned_ok h1
  obtain ⟨w2, items2, r2, c2⟩ := returned_ok h2
  obtain ⟨c2, c3⟩ := of_decide_eq_true c2
  exact ⟨w1, w2, items1, items2, r1, r2, of_decide_eq_true c1, c2, c3⟩

/-- **C51** (refuted). There is a run and a row `r` whose score reaches the 95% order statistic `d` of the threshold-window scores
ending at `r` and both hard limits allow the decision, but which is not reported. -/
theorem C51_misaligned : ∃ (E : MEnv Nat) (w w' : World) (data : MData) (items : List Multi.Item) (f : Frame) (t : Table)
    (S : Scorer) (tw : Nat) (th : ℚ) (r : Nat) (d : ℚ) (it : Multi.Item), E.WF ∧ Reachable E w ∧
    Multi.predict E data w = (w', .ok items) ∧ Predicted E w w' data f t S tw th ∧ it ∈ items ∧ f.index[r]? = some it.index ∧
    it.score = S.score t.rows r ∧ S.input + tw ≤ r + 1 ∧ Is95 (S.scores t.rows (r + 1 - tw) tw) d ∧ d ≤ it.score ∧
    min (3 / 10) th ≤ it.score ∧ it.isAnomaly = false := by
  obtain ⟨w', items, h, hi, ha, hs, htw, hth⟩ := demo_run
  obtain ⟨f, t, S, tw, th, hp, -⟩ := C49_predicted (demoE_wf loss0) demoTrained_reachable h
  have hf : f = demoTest := by have := hp.data; cases this; rfl
  have hl : items.length = 4 := by simpa using congrArg List.length hi
  have htw2 : tw = 2 := by
    obtain ⟨c, hc, -, e, -⟩ := hp.trained.config
    rw [hc] at htw
    rw [e]
    simpa using htw
  have hth2 : th = 4 / 5 := by
    have := hp.trained.threshold
    rw [hth] at this
    simpa using this.symm
  have hc := C49_count (demoE_wf loss0) demoTrained_reachable h hp
  have hfl : f.index.length = 7 := by rw [hf]; rfl
  have h2 := C48_labels (demoE_wf loss0) demoTrained_reachable h hp 2 (by omega)
  have h3 := C48_labels (demoE_wf loss0) demoTrained_reachable h hp 3 (by omega)
  have e2 : items[2].score = 20000000000000000 / 80000000600000001 := by
    have := congrArg (·[2]?) hs
    simpa [hl] using this
  have e3 : items[3].score = 3 / 5 := by
    have := congrArg (·[3]?) hs
    simpa [hl] using this
  have e4 : items[3].isAnomaly = false := by
    have := congrArg (·[3]?) ha
    simpa [hl] using this
  refine ⟨demoE loss0, demoTrained, w', _, items, f, t, S, tw, th, f.index.length - items.length + 3, 3 / 5, items[3], demoE_wf _,
    demoTrained_reachable, h, hp, List.getElem_mem _, h3.1, h3.2, by omega, ?_, by rw [e3], ?_, e4⟩
  · have es : S.scores t.rows (f.index.length - items.length + 3 + 1 - tw) tw =
        [20000000000000000 / 80000000600000001, 3 / 5] := by
      subst htw2
      unfold Scorer.scores
      rw [show f.index.length - items.length + 3 + 1 - 2 = f.index.length - items.length + 2 by omega]
      show [S.score t.rows (f.index.length - items.length + 2), S.score t.rows (f.index.length - items.length + 3)] = _
      rw [← h2.2, e2, ← h3.2, e3]
    rw [es]
    exact ⟨_, List.Perm.refl _, by simp; norm_num, rfl⟩
  · rw [e3, hth2]; norm_num

end Verif
