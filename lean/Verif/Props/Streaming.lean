import Verif.Props.MultiPredict
import Verif.Props.Table

/-!
# Predictions for growing tables

C109: which rows a result of `predict` depends on, and what happens to the results when rows are appended to the table or removed
from its front.
-/

namespace Verif

open Multi Spec

/-- `g` has the columns of `f`, in the same order, and begins with the rows of `f` -/
structure Spec.Extends (f g : Frame) : Prop where
  index : f.index <+: g.index
  cols : List.Forall₂ (fun a b : Column => a.name = b.name ∧ a.cells <+: b.cells) f.cols g.cols

/-! ### which rows a result depends on -/

theorem scorer_normed_congr {S : Scorer} {rows rows' : List (List ℚ)} {r r' : Nat} (h : rows.getD r [] = rows'.getD r' [])
    (v : Nat) : S.normed rows r v = S.normed rows' r' v := by
  unfold Scorer.normed cell
  rw [h]

theorem scorer_window_congr {S : Scorer} {rows rows' : List (List ℚ)} {r r' : Nat}
    (h : ∀ i < S.input, rows.getD (r - S.input + i) [] = rows'.getD (r' - S.input + i) []) :
    S.window rows r = S.window rows' r' := by
  unfold Scorer.window
  refine List.map_congr_left fun i hi => List.map_congr_left fun v _ => ?_
  exact scorer_normed_congr (h i (List.mem_range.1 hi)) v

theorem scorer_contribution_congr {S : Scorer} {rows rows' : List (List ℚ)} {r r' : Nat}
    (h : ∀ i < S.input, rows.getD (r - S.input + i) [] = rows'.getD (r' - S.input + i) [])
    (h0 : rows.getD r [] = rows'.getD r' []) : S.contribution rows r = S.contribution rows' r' := by
  funext v
  unfold Scorer.contribution
  rw [scorer_window_congr h, scorer_normed_congr h0]

theorem scorer_score_congr {S : Scorer} {rows rows' : List (List ℚ)} {r r' : Nat}
    (h : ∀ i < S.input, rows.getD (r - S.input + i) [] = rows'.getD (r' - S.input + i) [])
    (h0 : rows.getD r [] = rows'.getD r' []) : S.score rows r = S.score rows' r' := by
  unfold Scorer.score
  rw [scorer_contribution_congr h h0]

theorem itemAt_local {S : Scorer} {tw : Nat} {th : ℚ} {names : List String} {index index' : List Int}
    {rows rows' : List (List ℚ)} {k k' : Nat} {it it' : Multi.Item} (htw : 0 < tw)
    (h : ItemAt S tw th names index rows k it) (h' : ItemAt S tw th names index' rows' k' it')
    (hk : min k (tw - 1) = min k' (tw - 1))
    (hlab : index.getD (S.input + (tw - 1) + k) 0 = index'.getD (S.input + (tw - 1) + k') 0)
    (hrows : ∀ j < S.input + (tw - 1) + min k (tw - 1) + 1,
      rows.getD (k - min k (tw - 1) + j) [] = rows'.getD (k' - min k' (tw - 1) + j) []) : it = it' := by
  -- a row at distance `j` from the first one
  have hrow : ∀ j, k - min k (tw - 1) ≤ j → j ≤ S.input + (tw - 1) + k → ∀ j', j + k' = j' + k →
      rows.getD j [] = rows'.getD j' [] := by
    intro j h1 h2 j' h3
    have := hrows (j - (k - min k (tw - 1))) (by omega)
    rw [show k - min k (tw - 1) + (j - (k - min k (tw - 1))) = j by omega,
      show k' - min k' (tw - 1) + (j - (k - min k (tw - 1))) = j' by omega] at this
    exact this
  have hwin : ∀ j, k - min k (tw - 1) + S.input ≤ j → j ≤ S.input + (tw - 1) + k → ∀ j', j + k' = j' + k →
      ∀ i < S.input, rows.getD (j - S.input + i) [] = rows'.getD (j' - S.input + i) [] := by
    intro j h1 h2 j' h3 i hi
    exact hrow _ (by omega) (by omega) _ (by omega)
  have hr : S.input + (tw - 1) + k + k' = S.input + (tw - 1) + k' + k := by omega
  have hc : S.contribution rows (S.input + (tw - 1) + k) = S.contribution rows' (S.input + (tw - 1) + k') :=
    scorer_contribution_congr (hwin _ (by omega) (by omega) _ hr) (hrow _ (by omega) (by omega) _ hr)
  have hs : it.score = it'.score := by
    rw [h.score, h'.score]
    exact scorer_score_congr (hwin _ (by omega) (by omega) _ hr) (hrow _ (by omega) (by omega) _ hr)
  have hi : it.index = it'.index := by rw [h.label, h'.label, hlab]
  have ha : it.isAnomaly = it'.isAnomaly := by
    obtain ⟨d, hd, ha⟩ := h.anomaly
    obtain ⟨d', hd', ha'⟩ := h'.anomaly
    have e : ((List.range' (k + 1 - tw) (k + 1 - (k + 1 - tw))).map fun j => S.score rows (S.input + j)) =
        ((List.range' (k' + 1 - tw) (k' + 1 - (k' + 1 - tw))).map fun j => S.score rows' (S.input + j)) := by
      apply List.ext_getElem
      · simp only [List.length_map, List.length_range']; omega
      · intro i h1 h2
        simp only [List.length_map, List.length_range'] at h1 h2
        simp only [List.getElem_map, List.getElem_range', one_mul]
        exact scorer_score_congr (hwin _ (by omega) (by omega) _ (by omega)) (hrow _ (by omega) (by omega) _ (by omega))
    rw [e, hd'] at hd
    cases hd
    rw [ha, ha', hs]
  have hv : it.severity = it'.severity := by rw [h.severity, h'.severity, ha, hs]
  have ht : it.interpretation = it'.interpretation := by
    have h1 := h.interpretation
    have h2 := h'.interpretation
    have e : ((List.range S.dim).map fun i => (List.range S.dim).map fun j =>
          ((S.attention (S.window rows (S.input + (tw - 1) + k))).getD i []).getD j 0 -
          ((List.range tw).map fun a => ((S.attention (S.window rows (S.input + k + a))).getD i []).getD j 0).sum / tw) =
        ((List.range S.dim).map fun i => (List.range S.dim).map fun j =>
          ((S.attention (S.window rows' (S.input + (tw - 1) + k'))).getD i []).getD j 0 -
          ((List.range tw).map fun a => ((S.attention (S.window rows' (S.input + k' + a))).getD i []).getD j 0).sum / tw) := by
      refine List.map_congr_left fun i _ => List.map_congr_left fun j _ => ?_
      rw [scorer_window_congr (hwin _ (by omega) (by omega) _ hr)]
      congr 3
      refine List.map_congr_left fun a ha => ?_
      have := List.mem_range.1 ha
      rw [scorer_window_congr (hwin (S.input + k + a) (by omega) (by omega) (S.input + k' + a) (by omega))]
    rw [hc, e, h2] at h1
    exact (Except.ok.inj h1).symm
  cases it
  cases it'
  simp_all

section
variable {TS : Type} {E : MEnv TS} {w w1 w2 : World} {items1 items2 : List Multi.Item} {f g : Frame} {t1 t2 : Table} {S : Scorer}
  {tw : Nat} {th : ℚ}

/-- predictions with the same detector leave the same detector -/
theorem predict_det {d1 d2 : MData} (h1 : Multi.predict E d1 w = (w1, .ok items1))
    (h2 : Multi.predict E d2 w = (w2, .ok items2)) : w1.det = w2.det := by
  have key : ∀ {d : MData} {v : World} {l : List Multi.Item}, Multi.predict E d w = (v, .ok l) →
      (∃ m, w.det.model = some m ∧ v.det = w.det) ∨
      (w.det.model = none ∧ ∃ p k, w.det.modelPath = some p ∧ w.disk p = .ckpt k ∧ v.det = restored w.det k) := by
    intro d v l h
    have h : MM.Returns (Multi.predict E d) w v l := h
    unfold Multi.predict at h
    obtain ⟨a, ⟨f, t, c0⟩, ha, h⟩ := MM.bind_ok.1 h
    obtain ⟨b, _, hb, h⟩ := MM.bind_ok.1 h
    obtain ⟨x, y, hx, h⟩ := MM.bind_ok.1 h
    obtain ⟨rfl, rfl⟩ := MM.get_ok.1 hx
    obtain ⟨hv, -⟩ := MM.of_ok.1 h
    subst hv
    obtain ⟨-, -, -, hdet, hdisk, -⟩ := processData_ok ha
    rcases ensureModel_cases a with ⟨b', hb', -, hcase⟩ | ⟨hb', -⟩
    · have e : ensureModel a = (b, .ok ()) := hb
      rw [hb'] at e
      cases e
      rw [hdet, hdisk] at hcase
      rcases hcase with ⟨m, hm, rfl⟩ | ⟨hm, p, k, hp, hk, rfl⟩
      · exact .inl ⟨m, hm, hdet⟩
      · exact .inr ⟨hm, p, k, hp, hk, rfl⟩
    · have e : ensureModel a = (b, .ok ()) := hb
      rw [hb'] at e
      cases e
  rcases key h1 with ⟨m, hm, e⟩ | ⟨hm, p, k, hp, hk, e⟩
  · rcases key h2 with ⟨m', -, e'⟩ | ⟨hm', -⟩
    · rw [e, e']
    · rw [hm] at hm'; cases hm'
  · rcases key h2 with ⟨m', hm', -⟩ | ⟨-, p', k', hp', hk', e'⟩
    · rw [hm] at hm'; cases hm'
    · rw [hp] at hp'
      cases hp'
      rw [hk] at hk'
      cases hk'
      rw [e, e']

/-- two predictions of the same detector in terms of the same scores -/
theorem predicted_both (hE : E.WF) (hw : Reachable E w) (h1 : Multi.predict E (.frame f) w = (w1, .ok items1))
    (h2 : Multi.predict E (.frame g) w = (w2, .ok items2)) (ht1 : Filled E w.params f t1) (ht2 : Filled E w.params g t2) :
    ∃ S tw th, Predicted E w w1 (.frame f) f t1 S tw th ∧ Predicted E w w2 (.frame g) g t2 S tw th := by
  obtain ⟨f', t', S, tw, th, hp, -⟩ := C49_predicted hE hw h1
  have := hp.data
  cases this
  have := filled_unique hp.table ht1
  subst this
  refine ⟨S, tw, th, hp, ⟨rfl, ht2, ?_⟩⟩
  rw [← predict_det h1 h2]
  exact hp.trained

/-- **C109** (locality). Two tables are predicted with the same detector. A result of the first and a result of the second are equal,
in all their parts, if their labels agree, the column names agree and the tables agree on the rows up to the one that is scored,
from `input_size + 2·(threshold_window - 1)` rows before it on (or from the first row, if both have the same number of results
before them and that is less than `threshold_window - 1`). -/
theorem C109_local (hE : E.WF) (hw : Reachable E w) (h1 : Multi.predict E (.frame f) w = (w1, .ok items1))
    (h2 : Multi.predict E (.frame g) w = (w2, .ok items2)) (hp1 : Predicted E w w1 (.frame f) f t1 S tw th)
    (hp2 : Predicted E w w2 (.frame g) g t2 S tw th) (hnames : t1.names = t2.names) {k1 k2 : Nat} (hk1 : k1 < items1.length)
    (hk2 : k2 < items2.length) (hk : k1 = k2 ∨ (tw - 1 ≤ k1 ∧ tw - 1 ≤ k2)) (hlab : items1[k1].index = items2[k2].index)
    (hrows : ∀ j ≤ S.input + 2 * (tw - 1), j ≤ f.index.length - items1.length + k1 → j ≤ g.index.length - items2.length + k2 →
      t1.rows[f.index.length - items1.length + k1 - j]? = t2.rows[g.index.length - items2.length + k2 - j]?) :
    items1[k1] = items2[k2] := by
  have hA1 := answer hE hw h1 hp1
  have hA2 := answer hE hw h2 hp2
  have hc1 := C49_count hE hw h1 hp1
  have hc2 := C49_count hE hw h2 hp2
  have htw := hA1.tw_pos
  have e1 := hA1.item k1 hk1
  have e2 := hA2.item k2 hk2
  rw [← hnames] at e2
  refine itemAt_local htw e1 e2 (by omega) ?_ ?_
  · rw [← e1.label, ← e2.label, hlab]
  · intro j hj
    have := hrows (S.input + (tw - 1) + min k1 (tw - 1) - j) (by omega) (by omega) (by omega)
    rw [show f.index.length - items1.length + k1 - (S.input + (tw - 1) + min k1 (tw - 1) - j) = k1 - min k1 (tw - 1) + j by omega,
      show g.index.length - items2.length + k2 - (S.input + (tw - 1) + min k1 (tw - 1) - j) = k2 - min k2 (tw - 1) + j by omega]
      at this
    rw [List.getD_eq_getElem?_getD, List.getD_eq_getElem?_getD, this]

/-- **C109** (appended rows). If the processed table of the second prediction begins with the one of the first, the results of the
first prediction are the first results of the second, in all their parts: rows that come later change nothing. -/
theorem C109_prefix (hE : E.WF) (hw : Reachable E w) (h1 : Multi.predict E (.frame f) w = (w1, .ok items1))
    (h2 : Multi.predict E (.frame g) w = (w2, .ok items2)) (ht1 : Filled E w.params f t1) (ht2 : Filled E w.params g t2)
    (hnames : t1.names = t2.names) (hindex : f.index <+: g.index) (hrows : t1.rows <+: t2.rows) : items1 <+: items2 := by
  obtain ⟨S, tw, th, hp1, hp2⟩ := predicted_both hE hw h1 h2 ht1 ht2
  have hA1 := answer hE hw h1 hp1
  have hA2 := answer hE hw h2 hp2
  have hc1 := C49_count hE hw h1 hp1
  have hc2 := C49_count hE hw h2 hp2
  have hle := hindex.length_le
  rw [List.prefix_iff_eq_take]
  apply List.ext_getElem
  · simp only [List.length_take]; omega
  · intro k hk1 hk
    have hk2 : k < items2.length := by omega
    rw [List.getElem_take]
    have htw := hA1.tw_pos
    have e1 := hA1.item k hk1
    have e2 := hA2.item k hk2
    rw [← hnames] at e2
    refine itemAt_local htw e1 e2 rfl ?_ ?_
    · obtain ⟨r, hr⟩ := hindex
      rw [← hr, List.getD_append _ _ _ _ (by omega)]
    · intro j hj
      have hl1 := table_rows hE hp1
      obtain ⟨r, hr⟩ := hrows
      rw [← hr, List.getD_append _ _ _ _ (by omega)]

/-- **C109** (removed rows). If the processed table of the second prediction is the one of the first without its first `d` rows, the
results of the second prediction are the last results of the first, except for the first `threshold_window - 1` of them. -/
theorem C109_suffix (hE : E.WF) (hw : Reachable E w) (h1 : Multi.predict E (.frame f) w = (w1, .ok items1))
    (h2 : Multi.predict E (.frame g) w = (w2, .ok items2)) (hp1 : Predicted E w w1 (.frame f) f t1 S tw th)
    (hp2 : Predicted E w w2 (.frame g) g t2 S tw th) (hnames : t1.names = t2.names) {d : Nat} (hindex : g.index = f.index.drop d)
    (hrows : t2.rows = t1.rows.drop d) : items2.drop (tw - 1) = items1.drop (d + (tw - 1)) := by
  have hA1 := answer hE hw h1 hp1
  have hA2 := answer hE hw h2 hp2
  have hc1 := C49_count hE hw h1 hp1
  have hc2 := C49_count hE hw h2 hp2
  have htw := hA1.tw_pos
  have hlen : g.index.length = f.index.length - d := by rw [hindex, List.length_drop]
  apply List.ext_getElem
  · simp only [List.length_drop]; omega
  · intro k hk hk'
    simp only [List.length_drop] at hk hk'
    rw [List.getElem_drop, List.getElem_drop]
    have e1 := hA1.item (d + (tw - 1) + k) (by omega)
    have e2 := hA2.item (tw - 1 + k) (by omega)
    rw [← hnames] at e2
    symm
    refine itemAt_local htw e1 e2 (by omega) ?_ ?_
    · rw [hindex, List.getD_eq_getElem?_getD, List.getD_eq_getElem?_getD, List.getElem?_drop,
        show d + (S.input + (tw - 1) + (tw - 1 + k)) = S.input + (tw - 1) + (d + (tw - 1) + k) by omega]
    · intro j hj
      rw [hrows, List.getD_eq_getElem?_getD, List.getD_eq_getElem?_getD, List.getElem?_drop,
        show d + (tw - 1 + k - min (tw - 1 + k) (tw - 1) + j) = d + (tw - 1) + k - min (d + (tw - 1) + k) (tw - 1) + j by omega]

end

/-! ### filling a column that grows -/

theorem ffillFrom_append (last : Option ℚ) (a b : List (Option ℚ)) : ffillFrom last a <+: ffillFrom last (a ++ b) := by
  induction a generalizing last with
  | nil => exact List.nil_prefix
  | cons x t ih =>
    cases x with
    | none => exact (List.prefix_cons_inj _).2 (ih _)
    | some q => exact (List.prefix_cons_inj _).2 (ih _)

theorem ffillFrom_some {last : Option ℚ} (hl : last ≠ none) (a : List (Option ℚ)) : none ∉ ffillFrom last a := by
  induction a generalizing last with
  | nil => exact List.not_mem_nil
  | cons x t ih =>
    cases x with
    | none =>
      intro h
      rcases List.mem_cons.1 h with h | h
      · exact hl h.symm
      · exact ih hl h
    | some q =>
      intro h
      rcases List.mem_cons.1 h with h | h
      · cases h
      · exact ih (by simp) h

theorem ffillFrom_id (last : Option ℚ) {a : List (Option ℚ)} (h : none ∉ a) : ffillFrom last a = a := by
  induction a generalizing last with
  | nil => rfl
  | cons x t ih =>
    cases x with
    | none => simp at h
    | some q =>
      show some q :: ffillFrom (some q) t = _
      rw [ih _ fun hm => h (by simp [hm])]

theorem bfill_id {a : List (Option ℚ)} (h : none ∉ a) : Multi.bfill a = a := by
  unfold Multi.bfill Multi.ffill
  rw [ffillFrom_id _ (by simpa using h), List.reverse_reverse]

theorem prefix_of_kept {l l' : List (Option ℚ)} {r r' : List ℚ} (hl : l <+: l') (hc : none ∉ l) (h : r.length = l.length)
    (h' : r'.length = l'.length) (k : ∀ i v, At l i v → r[i]? = some v) (k' : ∀ i v, At l' i v → r'[i]? = some v) : r <+: r' := by
  have hle := hl.length_le
  rw [List.prefix_iff_eq_take]
  apply List.ext_getElem
  · simp only [List.length_take]; omega
  · intro i h1 h2
    rw [List.getElem_take]
    have hi : i < l.length := by omega
    cases hv : l[i] with
    | none => exact absurd (hv ▸ List.getElem_mem hi) hc
    | some v =>
      have e : l'[i]? = some (some v) := by
        obtain ⟨s, rfl⟩ := hl
        rw [List.getElem?_append_left hi, List.getElem?_eq_getElem hi, hv]
      have a := k i v (by rw [At, List.getElem?_eq_getElem hi, hv])
      have b := k' i v e
      rw [List.getElem?_eq_getElem h1] at a
      rw [List.getElem?_eq_getElem (by omega)] at b
      rw [Option.some.inj a, Option.some.inj b]

theorem at_lt {l : List (Option ℚ)} {i : Nat} {v : ℚ} (h : At l i v) : i < l.length := (List.getElem?_eq_some_iff.1 h).1

/-- the cells that are filled without looking at what follows -/
def Causal (P : Processor) (l : List (Option ℚ)) : Prop :=
  none ∉ l ∨ P.method = .zero ∨ P.method = .fixed ∨ (P.method = .previous ∧ ∃ q, l.head? = some (some q))

theorem fillCol_prefix {P : Processor} {l l' : List (Option ℚ)} {r r' : List ℚ} (h : P.fillCol l = .ok r)
    (h' : P.fillCol l' = .ok r') (hl : l <+: l') (hc : Causal P l) : r <+: r' := by
  unfold Processor.fillCol at h h'
  have const : ∀ d : ℚ, l.map (·.getD d) <+: l'.map (·.getD d) := fun d => hl.map _
  cases hm : P.method with
  | zero =>
    simp only [hm, Except.ok.injEq] at h h'
    subst h h'
    exact const 0
  | fixed =>
    simp only [hm] at h h'
    cases hv : P.value <;> simp only [hv] at h h'
    · cases h; cases h'; exact const _
    · split at h
      · cases h
      · split at h'
        · cases h'
        · cases h; cases h'; exact const _
    · split at h
      · cases h
      · split at h'
        · cases h'
        · cases h; cases h'; exact const _
    · cases h; cases h'; exact const _
  | linear =>
    simp only [hm, Except.ok.injEq] at h h'
    subst h h'
    rcases hc with hc | hc | hc | ⟨hc, -⟩
    · refine prefix_of_kept hl hc (by simp [interpolate_length]) (by simp [interpolate_length]) ?_ ?_
      · intro i v hv
        obtain ⟨x, h1, h2, -⟩ := fillLinear_col_spec l (at_lt hv)
        rw [h1, h2 v hv]
      · intro i v hv
        obtain ⟨x, h1, h2, -⟩ := fillLinear_col_spec l' (at_lt hv)
        rw [h1, h2 v hv]
    all_goals rw [hm] at hc; cases hc
  | subsequent =>
    simp only [hm, Except.ok.injEq] at h h'
    subst h h'
    rcases hc with hc | hc | hc | ⟨hc, -⟩
    · refine prefix_of_kept hl hc (by simp [bfill_length, ffill_length]) (by simp [bfill_length, ffill_length]) ?_ ?_
      · intro i v hv
        obtain ⟨x, h1, h2, -⟩ := fillSubsequent_spec l (at_lt hv)
        rw [h1, h2 v hv]
      · intro i v hv
        obtain ⟨x, h1, h2, -⟩ := fillSubsequent_spec l' (at_lt hv)
        rw [h1, h2 v hv]
    all_goals rw [hm] at hc; cases hc
  | previous =>
    simp only [hm, Except.ok.injEq] at h h'
    subst h h'
    rcases hc with hc | hc | hc | ⟨-, q, hq⟩
    · refine prefix_of_kept hl hc (by simp [bfill_length, ffill_length]) (by simp [bfill_length, ffill_length]) ?_ ?_
      · intro i v hv
        obtain ⟨x, h1, h2, -⟩ := fillPrevious_spec l (at_lt hv)
        rw [h1, h2 v hv]
      · intro i v hv
        obtain ⟨x, h1, h2, -⟩ := fillPrevious_spec l' (at_lt hv)
        rw [h1, h2 v hv]
    · rw [hm] at hc; cases hc
    · rw [hm] at hc; cases hc
    · obtain ⟨s, rfl⟩ := hl
      cases l with
      | nil => cases hq
      | cons x t =>
        obtain rfl : x = some q := by simpa using hq
        have n1 : none ∉ Multi.ffill (some q :: t) := by
          show none ∉ some q :: ffillFrom (some q) t
          simpa using ffillFrom_some (by simp) t
        have n2 : none ∉ Multi.ffill (some q :: t ++ s) := by
          show none ∉ some q :: ffillFrom (some q) (t ++ s)
          simpa using ffillFrom_some (by simp) (t ++ s)
        rw [bfill_id n1, bfill_id n2]
        exact (ffillFrom_append none (some q :: t) s).map _

/-! ### tables that grow -/

theorem indexOrder_ascending {E : TableEnv} (hE : E.WF) {l : List Int} (hs : l.Pairwise (· < ·)) :
    E.indexOrder l = List.range l.length := by
  have hperm : (pick l 0 (E.indexOrder l)).Perm l := by
    unfold pick
    refine ((hE.order_perm l).map fun i => l.getD i 0).trans ?_
    have e2 : (List.range l.length).map (fun i => l.getD i 0) = l := by
      apply List.ext_getElem
      · simp
      · intro i h1 h2
        simp [List.getElem?_eq_getElem h2]
    rw [e2]
  have e := hperm.eq_of_pairwise (fun a b _ _ h1 h2 => le_antisymm h1 h2) (hE.order_sorted l) (hs.imp le_of_lt)
  have hlen : (E.indexOrder l).length = l.length := by simpa using (hE.order_perm l).length_eq
  apply List.ext_getElem
  · simp [hlen]
  · intro i h1 h2
    have hi : i < l.length := by omega
    have hr : (E.indexOrder l)[i] < l.length := by
      simpa using (hE.order_perm l).mem_iff.1 (List.getElem_mem h1)
    have := congrArg (fun x : List Int => x[i]?) e
    simp only [List.getElem?_map, List.getElem?_eq_getElem h1, Option.map_some, List.getElem?_eq_getElem hi,
      Option.some.injEq] at this
    rw [List.getD_eq_getElem _ _ hr] at this
    have hn : l.Nodup := hs.imp ne_of_lt
    simpa using (List.Nodup.getElem_inj_iff hn).1 this

theorem pick_range {α : Type} (l : List α) (d : α) : pick l d (List.range l.length) = l := by
  unfold pick
  apply List.ext_getElem
  · simp
  · intro i h1 h2
    simp [List.getElem?_eq_getElem h2]

theorem sortIndex_ascending {E : TableEnv} (hE : E.WF) {f : Frame} (hf : f.WF) (hs : f.index.Pairwise (· < ·)) :
    sortIndex E f = f := by
  unfold sortIndex
  rw [indexOrder_ascending hE hs]
  have : f.cols.map (fun c => (⟨c.name, pick c.cells .nan (List.range f.index.length)⟩ : Column)) = f.cols := by
    conv_rhs => rw [← List.map_id f.cols]
    refine List.map_congr_left fun c hc => ?_
    rw [← hf.rect c hc, pick_range]
    rfl
  dsimp only
  rw [this, pick_range]

theorem Frame.ok_wf {f : Frame} (h : f.ok = true) : f.WF := by
  unfold Frame.ok at h
  simp only [Bool.and_eq_true, Bool.not_eq_true', List.isEmpty_eq_false_iff, List.all_eq_true, beq_iff_eq] at h
  exact ⟨h.1.1, h.1.2, h.2⟩

theorem forall2_filter_names {R : Column → Column → Prop} (hR : ∀ a b, R a b → a.name = b.name) {l l' : List Column}
    (h : List.Forall₂ R l l') (n : String) :
    List.Forall₂ R (l.filter fun c => c.name = n) (l'.filter fun c => c.name = n) := by
  induction h with
  | nil => exact .nil
  | @cons a b _ _ hab _ ih =>
    by_cases hn : a.name = n
    · rw [List.filter_cons_of_pos (by simpa using hn), List.filter_cons_of_pos (by simpa using (hR _ _ hab) ▸ hn)]
      exact .cons hab ih
    · rw [List.filter_cons_of_neg (by simpa using hn), List.filter_cons_of_neg (by simpa using (hR _ _ hab) ▸ hn)]
      exact ih

theorem forall2_flatMap {α β γ : Type} {R : β → γ → Prop} {F : α → List β} {G : α → List γ} (l : List α)
    (h : ∀ a, List.Forall₂ R (F a) (G a)) : List.Forall₂ R (l.flatMap F) (l.flatMap G) := by
  induction l with
  | nil => exact .nil
  | cons a t ih =>
    rw [List.flatMap_cons, List.flatMap_cons]
    exact List.rel_append (h a) ih

theorem forall2_names {R : Column → Column → Prop} (hR : ∀ a b, R a b → a.name = b.name) {l l' : List Column}
    (h : List.Forall₂ R l l') : l.map (·.name) = l'.map (·.name) := by
  induction h with
  | nil => rfl
  | cons hab _ ih => rw [List.map_cons, List.map_cons, ih, hR _ _ hab]

theorem selectCols_extends {f g : Frame} (h : Extends f g) :
    Extends (selectCols f (sortedNames f)) (selectCols g (sortedNames g)) := by
  have hn := forall2_names (fun _ _ h => h.1) h.cols
  rw [sortedNames_congr (f := f) (g := g) (by rw [hn])]
  refine ⟨h.index, ?_⟩
  exact forall2_flatMap _ fun n => forall2_filter_names (fun _ _ h => h.1) h.cols n

theorem mapM_column_extends {P : Processor} {l l' : List Column} {r r' : List (List ℚ)}
    (h : List.Forall₂ (fun a b : Column => a.name = b.name ∧ a.cells <+: b.cells) l l')
    (hc : ∀ c ∈ l, Causal P (c.cells.map number)) (h1 : l.mapM P.column = .ok r) (h2 : l'.mapM P.column = .ok r') :
    List.Forall₂ (· <+: ·) r r' := by
  induction h generalizing r r' with
  | nil =>
    rw [List.mapM_nil] at h1 h2
    cases h1; cases h2
    exact .nil
  | cons hab _ ih =>
    rw [List.mapM_cons] at h1 h2
    obtain ⟨a, ha, h1⟩ := ebind_ok.1 h1
    obtain ⟨as, has, h1⟩ := ebind_ok.1 h1
    obtain ⟨b, hb, h2⟩ := ebind_ok.1 h2
    obtain ⟨bs, hbs, h2⟩ := ebind_ok.1 h2
    rw [epure_ok] at h1 h2
    subst h1 h2
    refine .cons ?_ (ih (fun c hc' => hc c (by simp [hc'])) has hbs)
    unfold Processor.column at ha hb
    split at ha
    · cases ha
    · rename_i la hla
      split at hb
      · cases hb
      · rename_i lb hlb
        have ea := (astypeFloat_some hla).1
        have eb := (astypeFloat_some hlb).1
        subst ea eb
        exact fillCol_prefix ha hb (hab.2.map _) (hc _ (by simp))

theorem rows_extends {t t' : Table} (hi : t.index <+: t'.index) (hc : List.Forall₂ (· <+: ·) t.cols t'.cols)
    (hl : ∀ c ∈ t.cols, c.length = t.index.length) : t.rows <+: t'.rows := by
  have hle := hi.length_le
  rw [List.prefix_iff_eq_take]
  unfold Table.rows
  apply List.ext_getElem
  · simp only [List.length_map, List.length_range, List.length_take]; omega
  · intro i h1 h2
    simp only [List.length_map, List.length_range] at h1
    simp only [List.getElem_take, List.getElem_map, List.getElem_range]
    clear h2
    generalize t.cols = l at hc hl
    generalize t'.cols = l' at hc
    induction hc with
    | nil => rfl
    | cons hab _ ih =>
      rw [List.map_cons, List.map_cons, ih fun c hc' => hl c (by simp [hc'])]
      congr 1
      obtain ⟨s, hs⟩ := hab
      rw [← hs, List.getD_append _ _ _ _ (by rw [hl _ (by simp)]; exact h1)]

theorem fillCol_length {P : Processor} {l : List (Option ℚ)} {r : List ℚ} (h : P.fillCol l = .ok r) : r.length = l.length := by
  unfold Processor.fillCol at h
  split at h
  · cases h; simp [bfill_length, ffill_length]
  · cases h; simp [bfill_length, ffill_length]
  · cases h; simp [interpolate_length]
  · cases h; simp
  · split at h
    · cases h; simp
    · cases h; simp
    · split at h
      · cases h
      · cases h; simp

theorem column_length {P : Processor} {c : Column} {r : List ℚ} (h : P.column c = .ok r) : r.length = c.cells.length := by
  unfold Processor.column at h
  split at h
  · cases h
  · rename_i l hl
    rw [fillCol_length h, (astypeFloat_some hl).1, List.length_map]

/-- the part of a table that is filled without looking at later rows -/
def Spec.Settled (p : Params) (f : Frame) : Prop :=
  (∀ c ∈ f.cols, Cell.nan ∉ c.cells) ∨ p "fill_na_method" = some (.str "Zero") ∨ p "fill_na_method" = some (.str "Fixed") ∨
    (p "fill_na_method" = some (.str "Previous") ∧ ∀ c ∈ f.cols, ∃ q, c.cells.head? = some (.num q))

theorem settled_causal {TS : Type} {E : MEnv TS} {p : Params} {f : Frame} {P : Processor}
    (hP : Processor.init E.toTableEnv ((p "fill_na_method").getD (.str "Linear"))
      ((p "fill_na_value").getD (.float (.fin 0))) = .ok P) (h : Settled p f) (hconv : ∀ c ∈ f.cols, Cell.bad ∉ c.cells) :
    ∀ c ∈ f.cols, Causal P (c.cells.map number) := by
  intro c hc
  obtain ⟨s, hs, -, hk⟩ := Processor.init_ok hP
  rcases h with h | h | h | ⟨h, h'⟩
  · left
    intro hm
    obtain ⟨x, hx, e⟩ := List.mem_map.1 hm
    cases x with
    | num q => cases e
    | nan => exact h c hc hx
    | bad => exact hconv c hc hx
  · rw [h] at hs
    cases hs
    exact .inr (.inl (Option.some.inj hk).symm)
  · rw [h] at hs
    cases hs
    exact .inr (.inr (.inl (Option.some.inj hk).symm))
  · rw [h] at hs
    cases hs
    obtain ⟨q, hq⟩ := h' c hc
    exact .inr (.inr (.inr ⟨(Option.some.inj hk).symm, q, by rw [List.head?_map, hq]; rfl⟩))

section
variable {TS : Type} {E : MEnv TS} {w w1 w2 : World} {items1 items2 : List Multi.Item} {f g : Frame} {t1 t2 : Table}

theorem filled_extends (hE : E.WF) {p : Params} (hf : f.WF) (hg : g.WF) (hs : g.index.Pairwise (· < ·)) (hx : Extends f g)
    (hc : Settled p f) (ht1 : Filled E p f t1) (ht2 : Filled E p g t2) : t1.names = t2.names ∧ t1.rows <+: t2.rows := by
  obtain ⟨P, hP, h1⟩ := ht1
  obtain ⟨P', hP', h2⟩ := ht2
  rw [hP] at hP'
  cases hP'
  obtain ⟨a, rfl, a1, a2, a3, a4⟩ := process_ok h1
  obtain ⟨b, rfl, b1, b2, b3, b4⟩ := process_ok h2
  have hsf : f.index.Pairwise (· < ·) := hs.sublist hx.index.sublist
  rw [sortIndex_ascending hE.table hf hsf] at a1 a2 a3 a4
  rw [sortIndex_ascending hE.table hg hs] at b1 b2 b3 b4
  have hsel := selectCols_extends hx
  have hmem : ∀ c ∈ (selectCols f (sortedNames f)).cols, c ∈ f.cols := by
    intro c hc
    obtain ⟨n, -, hn⟩ := List.mem_flatMap.1 hc
    exact (List.mem_filter.1 hn).1
  have hbad : ∀ c ∈ (selectCols f (sortedNames f)).cols, Cell.bad ∉ c.cells := by
    intro c hc
    have := List.all_eq_true.1 a1 c hc
    obtain ⟨l, hl⟩ := Option.isSome_iff_exists.1 this
    exact (astypeFloat_some hl).2
  have hcausal : ∀ c ∈ (selectCols f (sortedNames f)).cols, Causal P (c.cells.map number) := by
    refine settled_causal (f := selectCols f (sortedNames f)) hP ?_ hbad
    rcases hc with h | h | h | ⟨h, h'⟩
    · exact .inl fun c hc => h c (hmem c hc)
    · exact .inr (.inl h)
    · exact .inr (.inr (.inl h))
    · exact .inr (.inr (.inr ⟨h, fun c hc => h' c (hmem c hc)⟩))
  refine ⟨?_, ?_⟩
  · rw [a3, b3]
    exact forall2_names (fun _ _ h => h.1) hsel.cols
  · refine rows_extends (by rw [a2, b2]; exact hsel.index) (mapM_column_extends hsel.cols hcausal a4 b4) ?_
    intro c hc
    obtain ⟨i, hi, rfl⟩ := List.mem_iff_getElem.1 hc
    have hlen := mapM_ok_length a4
    have hget := mapM_ok_get a4 (show i < (selectCols f (sortedNames f)).cols.length by omega)
    rw [column_length hget, hf.rect _ (hmem _ (List.getElem_mem _)), a2]
    rfl

/-- **C109** (growing table). Rows are appended to a table with ascending labels, and both tables are predicted with the same
detector and the same parameters. If the first table has no missing cells, or missing cells are filled with zero or a fixed value, or
with the previous value and the first row has no missing cells, the results of the first prediction are the first results of the
second, in all their parts. The appended rows may have missing cells. -/
theorem C109_grow (hE : E.WF) (hw : Reachable E w) (h1 : Multi.predict E (.frame f) w = (w1, .ok items1))
    (h2 : Multi.predict E (.frame g) w = (w2, .ok items2)) (hs : g.index.Pairwise (· < ·)) (hx : Extends f g)
    (hc : Settled w.params f) : items1 <+: items2 := by
  obtain ⟨f', t1, -, -, -, -, -, -, hd, hf, ht1, -⟩ := Multi.predict_ok hE (hw.good hE) h1
  cases hd
  obtain ⟨g', t2, -, -, -, -, -, -, hd, hg, ht2, -⟩ := Multi.predict_ok hE (hw.good hE) h2
  cases hd
  obtain ⟨hn, hr⟩ := filled_extends hE (Frame.ok_wf hf) (Frame.ok_wf hg) hs hx hc ht1 ht2
  exact C109_prefix hE hw h1 h2 ht1 ht2 hn hx.index hr

end

/-! ### concrete cases -/

/-- five rows -/
def growShort : Frame := ⟨[20, 21, 22, 23, 24], [column "b" [5, 6, 5, 6, 5], column "a" [1, 2, 1, 2, 9]]⟩

/-- the five rows and two more, with a missing cell -/
def growLong : Frame :=
  ⟨[20, 21, 22, 23, 24, 25, 26],
    [column "b" [5, 6, 5, 6, 5, 6, 5], ⟨"a", [.num 1, .num 2, .num 1, .num 2, .num 9, .nan, .num 1]⟩]⟩

theorem growLong_extends : Extends growShort growLong where
  index := by decide
  cols := .cons ⟨rfl, by decide⟩ (.cons ⟨rfl, by decide⟩ .nil)

/-- The five rows give two results, the seven rows four; the label of the second result is 24 and it is an anomaly. -/
example : ∃ w1 w2 items1 items2, Multi.predict (demoE loss0) (.frame growShort) demoTrained = (w1, .ok items1) ∧
    Multi.predict (demoE loss0) (.frame growLong) demoTrained = (w2, .ok items2) ∧ growLong.index.Pairwise (· < ·) ∧
    Extends growShort growLong ∧ Settled demoTrained.params growShort ∧
    items1.map (fun it => (it.index, it.isAnomaly)) = [(23, false), (24, true)] ∧ items2.length = 4 := by
  have h1 : returned (Multi.predict (demoE loss0) (.frame growShort) demoTrained).2
      (fun items => decide (items.map (fun it => (it.index, it.isAnomaly)) = [(23, false), (24, true)])) = true := by decide +kernel
  have h2 : returned (Multi.predict (demoE loss0) (.frame growLong) demoTrained).2
      (fun items => decide (items.length = 4)) = true := by decide +kernel
  obtain ⟨w1, items1, r1, c1⟩ := returned_ok h1
  obtain ⟨w2, items2, r2, c2⟩ := returned_ok h2
  exact ⟨w1, w2, items1, items2, r1, r2, by decide, growLong_extends, .inl (by decide), of_decide_eq_true c1, of_decide_eq_true c2⟩

/-- the processed table of `demoTest` -/
def demoTestTable : Table :=
  ⟨[20, 21, 22, 23, 24, 25, 26], ["a", "b"], [[1, 2, 1, 2, 9, 2, 1], [5, 6, 5, 6, 5, 6, 5]]⟩

/-- `demoTest` without its first row, and the processed table -/
def demoTail : Frame :=
  ⟨[21, 22, 23, 24, 25, 26], [column "b" [6, 5, 6, 5, 6, 5], column "a" [2, 1, 2, 9, 2, 1]]⟩

def demoTailTable : Table := ⟨[21, 22, 23, 24, 25, 26], ["a", "b"], [[2, 1, 2, 9, 2, 1], [6, 5, 6, 5, 6, 5]]⟩

theorem demoTest_filled : Filled (demoE loss0) demoTrained.params demoTest demoTestTable :=
  ⟨⟨.linear, .fin 0⟩, by rfl, by rfl⟩

theorem demoTail_filled : Filled (demoE loss0) demoTrained.params demoTail demoTailTable :=
  ⟨⟨.linear, .fin 0⟩, by rfl, by rfl⟩

/-- A table of seven rows and the same without its first row: the last two of three results agree with the last two of four. The
tables, seen from the last row, agree on more rows than a result depends on. -/
example : ∃ w1 w2 items1 items2 S tw th, Multi.predict (demoE loss0) (.frame demoTest) demoTrained = (w1, .ok items1) ∧
    Multi.predict (demoE loss0) (.frame demoTail) demoTrained = (w2, .ok items2) ∧
    Predicted (demoE loss0) demoTrained w1 (.frame demoTest) demoTest demoTestTable S tw th ∧
    Predicted (demoE loss0) demoTrained w2 (.frame demoTail) demoTail demoTailTable S tw th ∧
    demoTestTable.names = demoTailTable.names ∧ demoTail.index = demoTest.index.drop 1 ∧
    demoTailTable.rows = demoTestTable.rows.drop 1 ∧ items1.length = 4 ∧ items2.length = 3 ∧ tw = 2 ∧ S.input = 2 := by
  have h1 : returned (Multi.predict (demoE loss0) (.frame demoTest) demoTrained).2
      (fun items => decide (items.length = 4)) = true := by decide +kernel
  have h2 : returned (Multi.predict (demoE loss0) (.frame demoTail) demoTrained).2
      (fun items => decide (items.length = 3)) = true := by decide +kernel
  obtain ⟨w1, items1, r1, c1⟩ := returned_ok h1
  obtain ⟨w2, items2, r2, c2⟩ := returned_ok h2
  obtain ⟨S, tw, th, p1, p2⟩ := predicted_both (demoE_wf loss0) demoTrained_reachable r1 r2 demoTest_filled demoTail_filled
  have hc : ((Multi.predict (demoE loss0) (.frame demoTest) demoTrained).1.det.config.map
      fun c => (c.inputSize, c.thresholdWindow)) = some (2, 2) := by decide +kernel
  obtain ⟨c, e1, e2, e3, -⟩ := p1.trained.config
  rw [r1, e1] at hc
  simp only [Option.map_some, Option.some.injEq, Prod.mk.injEq] at hc
  exact ⟨w1, w2, items1, items2, S, tw, th, r1, r2, p1, p2, rfl, rfl, by decide, of_decide_eq_true c1, of_decide_eq_true c2,
    by rw [e3]; exact hc.2, by rw [e2]; exact hc.1⟩

/-- five rows, the last cell of `a` is missing -/
def gapShort : Frame :=
  ⟨[20, 21, 22, 23, 24], [column "b" [6, 6, 6, 6, 6], ⟨"a", [.num 2, .num 2, .num 2, .num 2, .nan]⟩]⟩

/-- one row more -/
def gapLong : Frame :=
  ⟨[20, 21, 22, 23, 24, 25], [column "b" [6, 6, 6, 6, 6, 6], ⟨"a", [.num 2, .num 2, .num 2, .num 2, .nan, .num 8]⟩]⟩

/-- **C109** (refuted for linear filling). With the default filling of missing cells an appended row changes an earlier result: the
row 24, whose cell is missing, is no anomaly until row 25 arrives, and is one afterwards. -/
theorem C109_linear : ∃ (E : MEnv Nat) (w : World) (f g : Frame), E.WF ∧ Reachable E w ∧ w.params "fill_na_method" = none ∧
    Extends f g ∧ g.index.Pairwise (· < ·) ∧ ∃ w1 w2 items1 items2, Multi.predict E (.frame f) w = (w1, .ok items1) ∧
      Multi.predict E (.frame g) w = (w2, .ok items2) ∧
      items1.map (fun it => (it.index, it.isAnomaly)) = [(23, false), (24, false)] ∧
      items2.map (fun it => (it.index, it.isAnomaly)) = [(23, false), (24, true), (25, true)] := by
  refine ⟨demoE loss0, demoTrained, gapShort, gapLong, demoE_wf _, demoTrained_reachable, by decide +kernel,
    ⟨by decide, .cons ⟨rfl, by decide⟩ (.cons ⟨rfl, by decide⟩ .nil)⟩, by decide, ?_⟩
  have h1 : returned (Multi.predict (demoE loss0) (.frame gapShort) demoTrained).2
      (fun items => decide (items.map (fun it => (it.index, it.isAnomaly)) = [(23, false), (24, false)])) = true := by decide +kernel
  have h2 : returned (Multi.predict (demoE loss0) (.frame gapLong) demoTrained).2
      (fun items => decide (items.map (fun it => (it.index, it.isAnomaly)) = [(23, false), (24, true), (25, true)])) = true := by
    decide +kernel
  obtain ⟨w1, items1, r1, c1⟩ := returned_ok h1
  obtain ⟨w2, items2, r2, c2⟩ := returned_ok h2
  exact ⟨w1, w2, items1, items2, r1, r2, of_decide_eq_true c1, of_decide_eq_true c2⟩

end Verif
