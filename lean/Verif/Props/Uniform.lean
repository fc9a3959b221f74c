import Verif.Props.Streaming
import Verif.Props.MultiInterp

/-!
# Tables without change (C112)

What `predict` answers to a table all rows of which are the same.
-/

namespace Verif

open Multi Spec

variable {TS : Type} {E : MEnv TS} {w w' : World} {data : MData} {items : List Multi.Item} {f : Frame} {t : Table} {S : Scorer} {tw : Nat}
  {th : ℚ}

theorem isRank_mem {l : List ℚ} {k : Nat} {v : ℚ} (h : IsRank l k v) : v ∈ l := by
  obtain ⟨s, hp, -, hk⟩ := h
  exact hp.mem_iff.1 (List.mem_of_getElem? hk)

theorem getD_constant {rows : List (List ℚ)} {row : List ℚ} (h : ∀ r ∈ rows, r = row) {i : Nat} (hi : i < rows.length) :
    rows.getD i [] = row := by
  rw [List.getD_eq_getElem _ _ hi]
  exact h _ (List.getElem_mem hi)

theorem window_constant {rows : List (List ℚ)} {row : List ℚ} (h : ∀ r ∈ rows, r = row) {r r' : Nat} (h1 : S.input ≤ r)
    (h2 : r < rows.length) (h3 : S.input ≤ r') (h4 : r' < rows.length) : S.window rows r = S.window rows r' :=
  scorer_window_congr fun i hi => by rw [getD_constant h (by omega), getD_constant h (by omega)]

theorem score_constant {rows : List (List ℚ)} {row : List ℚ} (h : ∀ r ∈ rows, r = row) {r r' : Nat} (h1 : S.input ≤ r)
    (h2 : r < rows.length) (h3 : S.input ≤ r') (h4 : r' < rows.length) : S.score rows r = S.score rows r' :=
  scorer_score_congr (fun i hi => by rw [getD_constant h (by omega), getD_constant h (by omega)])
    (by rw [getD_constant h h2, getD_constant h h4])

theorem attnShift_constant {rows : List (List ℚ)} {row : List ℚ} (h : ∀ r ∈ rows, r = row) {r : Nat} (htw : 0 < tw)
    (h1 : S.input + (tw - 1) ≤ r) (h2 : r < rows.length) (i j : Nat) : S.attnShift tw rows r i j = 0 := by
  unfold Scorer.attnShift
  have e : ((List.range tw).map fun a => ((S.attention (S.window rows (r - (tw - 1) + a))).getD i []).getD j 0) =
      List.replicate tw (((S.attention (S.window rows r)).getD i []).getD j 0) := by
    rw [List.eq_replicate_iff]
    refine ⟨by simp, fun x hx => ?_⟩
    obtain ⟨a, ha, rfl⟩ := List.mem_map.1 hx
    have ha := List.mem_range.1 ha
    rw [window_constant h (r' := r) (by omega) (by omega) (by omega) h2]
  rw [e, List.sum_replicate, nsmul_eq_mul]
  have : (tw : ℚ) ≠ 0 := by positivity
  field_simp
  ring

/-- **C112** A table all rows of which are the same, after filling, gets the same score in every result. The rows are all anomalies if
this score is at least `min(0.3, trained threshold)`, and none is otherwise. The explanations name no variable as changed. -/
theorem C112_constant (hE : E.WF) (hw : Reachable E w) (h : Multi.predict E data w = (w', .ok items))
    (hp : Predicted E w w' data f t S tw th) (row : List ℚ) (hrow : ∀ r ∈ t.rows, r = row) :
    ∃ s, ∀ it ∈ items, it.score = s ∧ (it.isAnomaly = true ↔ min (3 / 10) th ≤ s) ∧
      it.severity = (if min (3 / 10) th ≤ s then s / (E.e - 1) else 0) ∧
      ∀ c ∈ it.interpretation, c.changedVars = [] ∧ c.changedVals = [] := by
  have hA := answer hE hw h hp
  have hc := C49_count hE hw h hp
  have hlen := table_rows hE hp
  have htw := hA.tw_pos
  refine ⟨S.score t.rows S.input, fun it hit => ?_⟩
  obtain ⟨k, hk, rfl⟩ := List.mem_iff_getElem.1 hit
  obtain ⟨r, a, d, hr, ha, h95, hle, hiff⟩ := C51_threshold hE hw h hp k hk
  have hs : items[k].score = S.score t.rows S.input := by
    rw [(C48_labels hE hw h hp k hk).2]
    exact score_constant hrow (by omega) (by omega) le_rfl (by omega)
  have hd : d = S.score t.rows S.input := by
    have := isRank_mem h95
    unfold Scorer.scores at this
    obtain ⟨j, hj, rfl⟩ := List.mem_map.1 this
    have hj := List.mem_range.1 hj
    exact score_constant hrow (by omega) (by omega) le_rfl (by omega)
  have han : items[k].isAnomaly = true ↔ min (3 / 10) th ≤ S.score t.rows S.input := by
    rw [hiff, hs, hd]
    constructor
    · rintro (⟨-, h⟩ | h)
      · exact h
      · exact ((min_le_right _ _).trans (le_max_right _ _)).trans h.le
    · intro h; exact Or.inl ⟨le_rfl, h⟩
  refine ⟨hs, han, ?_, ?_⟩
  · rw [(hA.item k hk).severity, hs, hp.trained.env]
    by_cases hb : min (3 / 10) th ≤ S.score t.rows S.input
    · rw [if_pos hb, if_pos (han.2 hb)]
    · rw [if_neg hb, if_neg fun hx => hb (han.1 hx)]
  · intro c hcc
    obtain ⟨v, hv, sel, -, -, -, -, hsel, hvals, -, hbig, -⟩ := C55_changes hE hw h hp k hk c hcc
    have hnil : c.changedVals = [] := by
      rw [List.eq_nil_iff_forall_not_mem]
      intro x hx
      have hb := (hbig x hx).1
      rw [hvals] at hx
      obtain ⟨j, -, rfl⟩ := List.mem_map.1 hx
      rw [attnShift_constant hrow htw (by omega) (by omega), abs_zero] at hb
      unfold reportCutoff at hb
      have : (0 : ℚ) ≤ min (1 / 1000) (1 / (5 / 4 * (S.dim : ℚ))) := by
        apply le_min
        · norm_num
        · positivity
      linarith
    refine ⟨?_, hnil⟩
    have : sel = [] := by simpa [hvals] using hnil
    rw [this] at hsel
    simpa using hsel.symm

/-! ### cases -/

/-- a batch larger than the number of samples: no training step is made and the network forecasts 0 -/
def flatParams : Params := fun k => if k = "batch_size" then some (.int 100) else demoParams k

def flatStart : World := ⟨{}, fun _ => .missing, flatParams⟩

/-- ten equal rows -/
def flatTrain : Frame :=
  ⟨[0, 1, 2, 3, 4, 5, 6, 7, 8, 9], [column "b" (List.replicate 10 5), column "a" (List.replicate 10 1)]⟩

/-- seven rows equal to those of the training -/
def flatTest : Frame := ⟨[20, 21, 22, 23, 24, 25, 26], [column "b" (List.replicate 7 5), column "a" (List.replicate 7 1)]⟩

def flatTrained : World := { (Multi.fit (demoE loss0) (.frame flatTrain) flatStart).1 with params := demoParams }

theorem flatTrained_reachable : Reachable (demoE loss0) flatTrained :=
  Reachable.params _ (Reachable.fit _ (Reachable.start _ _ fun _ _ h => by cases h))

/-- the run meets the hypotheses of the theorem -/
example : ∃ w' items f t S tw th, Multi.predict (demoE loss0) (.frame flatTest) flatTrained = (w', .ok items) ∧
    Predicted (demoE loss0) flatTrained w' (.frame flatTest) f t S tw th ∧ t.rows = List.replicate 7 [1, 5] := by
  obtain ⟨w', items, h, -⟩ := returned_ok (x := Multi.predict (demoE loss0) (.frame flatTest)) (w := flatTrained)
    (test := fun _ => true) (by decide +kernel)
  obtain ⟨f, t, S, tw, th, hp, -⟩ := C49_predicted (demoE_wf loss0) flatTrained_reachable h
  refine ⟨w', items, f, t, S, tw, th, h, hp, ?_⟩
  have hf := hp.data
  cases hf
  have : Filled (demoE loss0) flatTrained.params flatTest
      ⟨[20, 21, 22, 23, 24, 25, 26], ["a", "b"], [List.replicate 7 1, List.replicate 7 5]⟩ := ⟨⟨.linear, .fin 0⟩, by rfl, by rfl⟩
  rw [filled_unique hp.table this]
  decide +kernel

/-- **C112** (defect). A detector trained on a table and asked about rows equal to all rows of the training, which the network forecasts
exactly, reports every one as an anomaly, with score and severity 0. -/
theorem C112_all_anomalies : ∃ (E : MEnv Nat) (w0 w : World) (f g : Frame), E.WF ∧ Reachable E w0 ∧
    Multi.fit E (.frame f) w0 = (w, .ok ()) ∧
    (∃ cells : List (String × ℚ), f.cols = cells.map (fun c => column c.1 (List.replicate f.index.length c.2)) ∧
      g.cols = cells.map (fun c => column c.1 (List.replicate g.index.length c.2))) ∧
    ∃ w' items, Multi.predict E (.frame g) { w with params := w0.params } = (w', .ok items) ∧ items ≠ [] ∧
      ∀ it ∈ items, it.isAnomaly = true ∧ it.score = 0 ∧ it.severity = 0 := by
  obtain ⟨w, u, h, -⟩ := returned_ok (x := Multi.fit (demoE loss0) (.frame flatTrain)) (w := flatStart)
    (test := fun _ => true) (by decide +kernel)
  refine ⟨demoE loss0, flatStart, w, flatTrain, flatTest, demoE_wf _, (Reachable.start _ _ fun _ _ h => by cases h), h,
    ⟨[("b", 5), ("a", 1)], rfl, rfl⟩, ?_⟩
  have hw : w = (Multi.fit (demoE loss0) (.frame flatTrain) flatStart).1 := by rw [h]
  have h1 : returned (Multi.predict (demoE loss0) (.frame flatTest)
      { (Multi.fit (demoE loss0) (.frame flatTrain) flatStart).1 with params := flatStart.params }).2 (fun items =>
      decide (items ≠ [] ∧ ∀ it ∈ items, it.isAnomaly = true ∧ it.score = 0 ∧ it.severity = 0)) = true := by decide +kernel
  obtain ⟨w', items, e, hd⟩ := returned_ok h1
  rw [hw]
  exact ⟨w', items, e, of_decide_eq_true hd⟩

end Verif
