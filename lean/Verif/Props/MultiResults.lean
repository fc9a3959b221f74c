import Verif.Multi.Results
import Verif.Multi.Fit
import Verif.Multi.Demo
import Verif.Props.MultiPredict

/-!
# Theorems: detection from collected forecasts

C106. `DetectionResults.compute_detection_results`.
-/

namespace Verif

open Multi Spec

/-- a table of `n` rows and `dim` columns -/
def IsTable (n dim : Nat) (l : List (List ℚ)) : Prop := l.length = n ∧ ∀ r ∈ l, r.length = dim

instance (n dim : Nat) (l : List (List ℚ)) : Decidable (IsTable n dim l) := inferInstanceAs (Decidable (_ ∧ _))

/-- how far a forecast misses: `exp(min(2|p - t|, 1)) - 1` -/
def missAt (E : NumEnv) (preds targets : List (List ℚ)) (i v : Nat) : ℚ := E.exp (min (2 * |cell preds i v - cell targets i v|) 1) - 1

/-- score of row `i`: mean over the variables of weight times miss -/
def missScore (E : NumEnv) (preds targets : List (List ℚ)) (pct : List ℚ) (dim i : Nat) : ℚ :=
  ((List.range dim).map fun v => missAt E preds targets i v * pct.getD v 0).sum / dim

theorem zipWith_table {n dim : Nat} {preds targets : List (List ℚ)} (hp : IsTable n dim preds) (ht : IsTable n dim targets) (f : ℚ → ℚ → ℚ) :
    List.zipWith (List.zipWith f) preds targets =
      (List.range n).map fun i => (List.range dim).map fun v => f (cell preds i v) (cell targets i v) := by
  refine List.ext_getElem (by simp [hp.1, ht.1]) fun i h1 h2 => ?_
  have hi : i < n := by simpa using h2
  have a1 : i < preds.length := by rw [hp.1]; exact hi
  have a2 : i < targets.length := by rw [ht.1]; exact hi
  rw [List.getElem_zipWith, List.getElem_map, List.getElem_range]
  have b1 := hp.2 _ (List.getElem_mem a1)
  have b2 := ht.2 _ (List.getElem_mem a2)
  refine List.ext_getElem (by simp [b1, b2]) fun v h3 h4 => ?_
  have hv : v < dim := by simpa using h4
  rw [List.getElem_zipWith, List.getElem_map, List.getElem_range]
  simp only [cell]
  rw [List.getD_eq_getElem (hn := a1), List.getD_eq_getElem (hn := a2), List.getD_eq_getElem (hn := by omega), List.getD_eq_getElem (hn := by omega)]

theorem mapM_eq_map {α β : Type} {f : α → Except PyErr β} {g : α → β} {l : List α} (h : ∀ a ∈ l, f a = .ok (g a)) : l.mapM f = .ok (l.map g) := by
  induction l with
  | nil => rfl
  | cons a l ih =>
    rw [List.mapM_cons, h a (by simp), ih (fun b hb => h b (by simp [hb]))]
    rfl

theorem range_run {α : Type} (f : Nat → α) {n k tw : Nat} (h : k + tw ≤ n) :
    (((List.range n).map f).drop k).take tw = (List.range tw).map fun j => f (k + j) := by
  refine List.ext_getElem (by simp; omega) fun i a b => ?_
  simp

theorem runs_threshold (sc : Nat → ℚ) {tw n : Nat} (h1 : 1 ≤ tw) (h2 : tw ≤ n) {q : Int} (hq : q = ((95 * tw / 100 : Nat) : Int)) :
    (unfoldRuns tw ((List.range n).map sc)).mapM (fun w => pyIndex (sortQ w) q) =
      .ok ((List.range (n - tw + 1)).map fun k => (sortQ ((List.range tw).map fun j => sc (k + j))).getD (95 * tw / 100) 0) := by
  have hr : 95 * tw / 100 < tw := by omega
  generalize 95 * tw / 100 = p at hq hr ⊢
  subst hq
  unfold unfoldRuns
  rw [List.length_map, List.length_range, show n + 1 - tw = n - tw + 1 by omega, List.mapM_map]
  refine mapM_eq_map fun k hk => ?_
  have hk : k < n - tw + 1 := by simpa using hk
  have hl : (sortQ ((List.range tw).map fun j => sc (k + j))).length = tw := by simp [length_sortQ]
  simp only [Function.comp]
  rw [range_run sc (by omega), pyIndex_ok (by omega), List.getD_eq_getElem (hn := by omega)]

/-- what `compute_detection_results` says about row `i = k + tw - 1`, the `k`-th of the rows it reports -/
structure ResultAt (E : NumEnv) (preds targets : List (List ℚ)) (pct : List ℚ) (lower upper : ℚ)
    (tw dim : Nat) (r : Results) (k : Nat) : Prop where
  score : r.scores[k]? = some (missScore E preds targets pct dim (k + tw - 1))
  severity : r.severity[k]? = some (missScore E preds targets pct dim (k + tw - 1) / (E.e - 1))
  forecast : r.forecast[k]? = preds[k + tw - 1]?
  contributors : r.contributors[k]? = some ((List.range dim).map fun v => npDiv (missAt E preds targets (k + tw - 1) v)
    ((List.range dim).map (missAt E preds targets (k + tw - 1))).sum)
  anomaly : ∃ d, Is95 ((List.range tw).map fun j => missScore E preds targets pct dim (k + j)) d ∧
    (r.anomalies[k]? = some true ↔
      (d ≤ missScore E preds targets pct dim (k + tw - 1) ∧ lower ≤ missScore E preds targets pct dim (k + tw - 1)) ∨
        upper < missScore E preds targets pct dim (k + tw - 1))

/-- **C106**. For tables of `n` rows and `dim` variables, one weight per variable and a window `1 ≤ tw ≤ n`, the result covers exactly the rows
`tw - 1, …, n - 1`; each is judged by the 95% order statistic of the `tw` scores ending at this very row. -/
theorem C106_results {E : NumEnv} {preds targets : List (List ℚ)} {attn : Option (List (List (List ℚ)))} {pct : List ℚ} {lower upper : ℚ}
    {tw n dim : Nat} (hp : IsTable n dim preds) (ht : IsTable n dim targets) (_hd : 0 < dim) (hw : pct.length = dim) (h1 : 1 ≤ tw) (h2 : tw ≤ n)
    (h3 : tw < 2 ^ 40) :
    ∃ r, detectionResults E preds targets attn pct lower upper tw = .ok r ∧ r.scores.length = n - tw + 1 ∧ r.severity.length = n - tw + 1 ∧
      r.forecast.length = n - tw + 1 ∧ r.contributors.length = n - tw + 1 ∧ r.anomalies.length = n - tw + 1 ∧
      (∀ k < n - tw + 1, ResultAt E preds targets pct lower upper tw dim r k) ∧ (attn = none → r.attn = none) ∧
      ∀ (A : Nat → List (List ℚ)) (m : Nat), attn = some ((List.range n).map A) → (∀ j, IsTable m m (A j)) →
        r.attn = some ((List.range (n - tw + 1)).map fun k => (List.range m).map fun i => (List.range m).map fun j =>
          cell (A (k + tw - 1)) i j - ((List.range tw).map fun a => cell (A (k + a)) i j).sum / tw) := by
  have hz := zipWith_table hp ht (contribution E)
  have hmiss : ∀ i v, contribution E (cell preds i v) (cell targets i v) = missAt E preds targets i v := fun _ _ => rfl
  simp only [hmiss] at hz
  set row : Nat → List ℚ := fun i => (List.range dim).map fun v => missAt E preds targets i v with hrow
  have hweight : ∀ i, weightRow (row i) pct = .ok ((List.range dim).map fun v => missAt E preds targets i v * pct.getD v 0) := by
    intro i
    unfold weightRow
    rw [if_pos (by simp [hrow, hw])]
    congr 1
    refine List.ext_getElem (by simp [hrow, hw]) fun v a b => ?_
    have hv : v < dim := by simpa using b
    simp only [hrow, List.getElem_zipWith, List.getElem_map, List.getElem_range]
    rw [List.getD_eq_getElem (hn := by omega)]
  have hm : ((List.range n).map row).mapM (fun r => weightRow r pct) =
      .ok ((List.range n).map fun i => (List.range dim).map fun v => missAt E preds targets i v * pct.getD v 0) := by
    have := mapM_eq_map (f := fun i => weightRow (row i) pct) (l := List.range n) fun i _ => hweight i
    rw [List.mapM_map]
    exact this
  have hsc : ((List.range n).map fun i => (List.range dim).map fun v => missAt E preds targets i v * pct.getD v 0).map npMean =
      (List.range n).map (missScore E preds targets pct dim) := by
    rw [List.map_map]
    refine List.map_congr_left fun i _ => ?_
    simp [npMean, missScore]
  set sc := missScore E preds targets pct dim with hscdef
  have hq : rank95 tw = ((95 * tw / 100 : Nat) : Int) := intMul95 h3
  unfold detectionResults
  generalize rank95 tw = q at hq ⊢
  have hthr := runs_threshold sc h1 h2 hq
  dsimp only
  rw [hz, hm]
  dsimp only
  rw [hsc, ht.1, if_neg (by omega), hthr]
  refine ⟨_, rfl, ?_⟩
  dsimp only
  rw [show n - (n - tw + 1) = tw - 1 by omega]
  have hlen : n - (tw - 1) = n - tw + 1 := by omega
  refine ⟨by simp; omega, by simp; omega, by simp [hp.1]; omega, by simp; omega, by simp; omega, fun k hk => ?_, fun ha => by rw [ha]; rfl,
    fun A m ha hA => ?_⟩
  · have hi : tw - 1 + k < n := by omega
    have e1 : k + tw - 1 = tw - 1 + k := by omega
    constructor
    · rw [e1]; simp [hi, hscdef]
    · rw [e1]; simp [hi, hscdef]
    · rw [e1]; simp
    · rw [e1]; simp [hi, hrow]
    · rw [e1]
      have hr : 95 * tw / 100 < tw := by omega
      set l := (List.range tw).map fun j => sc (k + j) with hl
      have hll : l.length = tw := by simp [hl]
      refine ⟨(sortQ l).getD (95 * tw / 100) 0, ⟨sortQ l, sortQ_perm l, sortQ_sorted l, ?_⟩, ?_⟩
      · rw [hll, List.getD_eq_getElem (hn := by rw [length_sortQ, hll]; exact hr)]
        exact List.getElem?_eq_getElem _
      · rw [List.getElem?_zipWith]
        simp [hi, hk, decideAnomaly, hl, hscdef]
  · subst ha
    have := attnChange_eq (n := m) (M := n) (by omega : 0 < tw) h2 hA
    rw [show n + 1 - tw = n - tw + 1 by omega] at this
    simp only [Option.map_some]
    rw [this]
    have e : ∀ k, k + tw - 1 = tw - 1 + k := fun k => by omega
    simp only [cell, e]

theorem missAt_range {E : NumEnv} (hE : E.WF) (preds targets : List (List ℚ)) (i v : Nat) :
    0 ≤ missAt E preds targets i v ∧ missAt E preds targets i v ≤ E.e - 1 := by
  unfold missAt
  have h0 : (0 : ℚ) ≤ min (2 * |cell preds i v - cell targets i v|) 1 := le_min (by positivity) zero_le_one
  have a := hE.exp_mono h0
  have b := hE.exp_mono (min_le_right (2 * |cell preds i v - cell targets i v|) 1)
  have c := hE.exp_zero
  have d := hE.exp_one
  constructor <;> linarith

/-- **C106** (severity). With weights between 0 and 1 every severity lies between 0 and 1. -/
theorem C106_severity {E : NumEnv} (hE : E.WF) {preds targets : List (List ℚ)} {attn : Option (List (List (List ℚ)))} {pct : List ℚ}
    {lower upper : ℚ} {tw n dim : Nat} {r : Results} (hp : IsTable n dim preds) (ht : IsTable n dim targets) (hd : 0 < dim)
    (hw : pct.length = dim) (h1 : 1 ≤ tw) (h2 : tw ≤ n) (h3 : tw < 2 ^ 40) (hpct : ∀ w ∈ pct, 0 ≤ w ∧ w ≤ 1)
    (h : detectionResults E preds targets attn pct lower upper tw = .ok r) : ∀ s ∈ r.severity, 0 ≤ s ∧ s ≤ 1 := by
  obtain ⟨r', h', -, hs, -, -, -, hr, -⟩ := C106_results (E := E) (attn := attn) (lower := lower) (upper := upper) hp ht hd hw h1 h2 h3
  rw [h] at h'
  cases h'
  intro s hs'
  obtain ⟨k, hk, rfl⟩ := List.mem_iff_getElem.1 hs'
  have e := (hr k (by omega)).severity
  rw [List.getElem?_eq_getElem hk] at e
  rw [Option.some.inj e]
  have he : 0 < E.e - 1 := by have := hE.e_lower; linarith
  have hd' : (0 : ℚ) < dim := by exact_mod_cast hd
  have key : ∀ x ∈ (List.range dim).map fun v => missAt E preds targets (k + tw - 1) v * pct.getD v 0, 0 ≤ x ∧ x ≤ E.e - 1 := by
    intro x hx
    obtain ⟨v, hv, rfl⟩ := List.mem_map.1 hx
    have hv : v < pct.length := by simpa [hw] using hv
    rw [List.getD_eq_getElem (hn := hv)]
    have a := missAt_range hE preds targets (k + tw - 1) v
    have b := hpct _ (List.getElem_mem hv)
    exact ⟨mul_nonneg a.1 b.1, (mul_le_of_le_one_right a.1 b.2).trans a.2⟩
  unfold missScore
  have l0 := List.sum_nonneg fun x hx => (key x hx).1
  have l1 := List.sum_le_card_nsmul _ _ fun x hx => (key x hx).2
  simp only [List.length_map, List.length_range, nsmul_eq_mul] at l1
  refine ⟨by positivity, ?_⟩
  rw [div_div, div_le_one (by positivity), mul_comm] at *
  linarith [mul_comm (dim : ℚ) (E.e - 1)]

/-- **C106** (peaks). A row with the largest score of its window, at least `lower`, is always flagged -/
theorem C106_peak {E : NumEnv} {preds targets : List (List ℚ)} {attn : Option (List (List (List ℚ)))} {pct : List ℚ} {lower upper : ℚ}
    {tw n dim k : Nat} {r : Results} (hp : IsTable n dim preds) (ht : IsTable n dim targets) (hd : 0 < dim) (hw : pct.length = dim)
    (h1 : 1 ≤ tw) (h2 : tw ≤ n) (h3 : tw < 2 ^ 40) (hk : k < n - tw + 1)
    (h : detectionResults E preds targets attn pct lower upper tw = .ok r)
    (hl : lower ≤ missScore E preds targets pct dim (k + tw - 1))
    (hmax : ∀ j < tw, missScore E preds targets pct dim (k + j) ≤ missScore E preds targets pct dim (k + tw - 1)) :
    r.anomalies[k]? = some true := by
  obtain ⟨r', h', -, -, -, -, -, hr, -⟩ := C106_results (E := E) (attn := attn) (lower := lower) (upper := upper) hp ht hd hw h1 h2 h3
  rw [h] at h'
  cases h'
  obtain ⟨d, ⟨s, hs, -, hg⟩, hiff⟩ := (hr k hk).anomaly
  refine hiff.2 (Or.inl ⟨?_, hl⟩)
  have hm := hs.mem_iff.1 (List.mem_of_getElem? hg)
  obtain ⟨j, hj, rfl⟩ := List.mem_map.1 hm
  exact hmax j (by simpa using hj)

/-- **C106** (refusals). A window longer than the series raises a `RuntimeError`. -/
theorem C106_long {E : NumEnv} {preds targets : List (List ℚ)} {attn : Option (List (List (List ℚ)))} {pct : List ℚ} {lower upper : ℚ}
    {tw : Nat} (h : targets.length < tw) : detectionResults E preds targets attn pct lower upper tw = .error .runtimeError := by
  unfold detectionResults
  dsimp only
  split
  · rfl
  · rw [if_pos h]

/-- **C106** (refusals). So do two or more weights that are not one per variable, when there are two or more variables and a row. -/
theorem C106_weights {E : NumEnv} {preds targets : List (List ℚ)} {attn : Option (List (List (List ℚ)))} {pct : List ℚ} {lower upper : ℚ}
    {tw n dim : Nat} (hp : IsTable n dim preds) (ht : IsTable n dim targets) (hn : 0 < n) (hd : 1 < dim) (hw : pct.length ≠ dim)
    (hw' : pct.length ≠ 1) : detectionResults E preds targets attn pct lower upper tw = .error .runtimeError := by
  have hz := zipWith_table hp ht (contribution E)
  obtain ⟨n, rfl⟩ := Nat.exists_eq_succ_of_ne_zero hn.ne'
  unfold detectionResults
  dsimp only
  rw [hz, List.range_succ_eq_map, List.map_cons, List.mapM_cons]
  have : weightRow ((List.range dim).map fun v => contribution E (cell preds 0 v) (cell targets 0 v)) pct = .error .valueError := by
    unfold weightRow
    rw [if_neg (by simpa using Ne.symm hw)]
    have hr : ((List.range dim).map fun v => contribution E (cell preds 0 v) (cell targets 0 v)).length = dim := by simp
    generalize (List.range dim).map (fun v => contribution E (cell preds 0 v) (cell targets 0 v)) = row at hr ⊢
    match row, pct, hr, hw' with
    | [x], _, hr, _ => simp at hr; omega
    | [], _, hr, _ => simp at hr; omega
    | _ :: _ :: _, [], _, _ => rfl
    | _ :: _ :: _, [_], _, hw' => simp at hw'
    | _ :: _ :: _, _ :: _ :: _, _, _ => rfl
  rw [this]
  rfl

theorem unfoldRuns_zero {α : Type} (l : List α) : ∃ t, unfoldRuns 0 l = [] :: t :=
  ⟨_, by unfold unfoldRuns; rw [Nat.sub_zero, List.range_succ_eq_map, List.map_cons, List.take_zero]⟩

/-- **C106** (refusals). A window of length zero raises an `IndexError` or, for unfit weights, a `RuntimeError`. -/
theorem C106_zero {E : NumEnv} {preds targets : List (List ℚ)} {attn : Option (List (List (List ℚ)))} {pct : List ℚ} {lower upper : ℚ} :
    detectionResults E preds targets attn pct lower upper 0 = .error .indexError ∨
      detectionResults E preds targets attn pct lower upper 0 = .error .runtimeError := by
  have hi : ∀ q, pyIndex (sortQ []) q = .error .indexError := by
    intro q
    unfold pyIndex
    dsimp only
    split
    · rename_i h
      split at h <;> simp [sortQ] at h
    · rfl
  unfold detectionResults
  dsimp only
  split
  · exact Or.inr rfl
  · rename_i w _
    obtain ⟨t, ht⟩ := unfoldRuns_zero (w.map npMean)
    rw [if_neg (Nat.not_lt_zero _), ht, List.mapM_cons, hi]
    exact Or.inl rfl

/-- **C106** (blend). For a non-negative `gamma` the blended score of `compute_anomaly_scores` lies between its two arguments. -/
theorem C106_blend {rmse prob gamma : ℚ} (hg : 0 ≤ gamma) :
    min rmse prob ≤ Multi.anomalyScore rmse prob gamma ∧ Multi.anomalyScore rmse prob gamma ≤ max rmse prob := by
  unfold Multi.anomalyScore
  have h1 : 0 < 1 + gamma := by linarith
  rw [le_div_iff₀ h1, div_le_iff₀ h1]
  have a := min_le_left rmse prob
  have b := min_le_right rmse prob
  have c := le_max_left rmse prob
  have d := le_max_right rmse prob
  constructor <;> nlinarith

/-! ### the statements are not empty -/

/-- four rows of two variables, forecast to be zero -/
def demoPreds : List (List ℚ) := [[0, 0], [0, 0], [0, 0], [0, 0]]
def demoTargets : List (List ℚ) := [[0, 0], [1 / 4, 0], [0, 0], [1, 1 / 4]]

example : IsTable 4 2 demoPreds ∧ IsTable 4 2 demoTargets := by decide +kernel

/-- the second row is the peak of its window but stays under `lower`, the third is no peak, the last exceeds `upper` -/
example : detectionResults demoNum demoPreds demoTargets (some [[[0]], [[1]], [[0]], [[1]]]) [1, 1 / 2] (3 / 10) (1 / 2) 2 = .ok {
    anomalies := [false, false, true], scores := [1 / 4, 0, 5 / 8], severity := [1 / 8, 0, 5 / 16], forecast := [[0, 0], [0, 0], [0, 0]],
    contributors := [[.fin 1, .fin 0], [.nan, .nan], [.fin (2 / 3), .fin (1 / 3)]], attn := some [[[1 / 2]], [[-1 / 2]], [[1 / 2]]] } := by
  decide +kernel

/-- lowering `lower` flags the peak -/
example : (detectionResults demoNum demoPreds demoTargets none [1, 1 / 2] (1 / 5) (1 / 2) 2).map (·.anomalies) = .ok [true, false, true] := by
  decide +kernel

/-- a window of length zero is refused by indexing, a long one and three weights by torch -/
example : detectionResults demoNum demoPreds demoTargets none [1, 1 / 2] 0 1 0 = .error .indexError ∧
    detectionResults demoNum demoPreds demoTargets none [1, 1 / 2] 0 1 5 = .error .runtimeError ∧
    detectionResults demoNum demoPreds demoTargets none [1, 1 / 2, 1] 0 1 2 = .error .runtimeError := by decide +kernel

end Verif
