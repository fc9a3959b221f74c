import Verif.Props.MultiOutcome

/-!
# How a prediction of a trained detector ends (C122)
-/

namespace Verif

open Multi Spec

theorem normRow_bc {mn mx : List ℚ} {lo hi : ℚ} {row : List ℚ} (h : row.length = mn.length ∨ row.length = 1) :
    ∃ y, normRow mn mx lo hi row = .ok y := by
  by_cases he : row.length = mn.length
  · exact normRow_total he
  · obtain ⟨x, rfl⟩ := List.length_eq_one_iff.1 (h.resolve_left he)
    unfold normRow
    rw [if_neg he]
    exact ⟨_, rfl⟩

theorem bcSamples_total {E : NumEnv} {c : Config} {base : List ℚ × List ℚ} {rows : List (List ℚ)}
    (hr : ∀ r ∈ rows, r.length = base.2.length ∨ r.length = 1) : ∃ ss, (inferSet c base rows).samples E = .ok ss := by
  unfold Dataset.samples
  rw [inferSet_ends]
  apply mapM_total
  intro hi hhi
  obtain ⟨j, hj, rfl⟩ := List.mem_map.1 hhi
  rw [List.mem_range] at hj
  unfold Dataset.get
  have h1 : pyIndex (inferSet c base rows).data ((c.inputSize + j : Nat) - 1 + (inferSet c base rows).horizon : Int) =
      .ok (rows[c.inputSize + j]'(by omega)) := by
    have := pyIndex_ok (l := rows) (i := c.inputSize + j) (by omega)
    rw [← this]
    show pyIndex rows _ = _
    congr 1
    simp [inferSet]
  obtain ⟨x, hx⟩ := mapM_total (f := normRow (inferSet c base rows).mins (inferSet c base rows).maxs
    (inferSet c base rows).clipMin (inferSet c base rows).clipMax) (l := (inferSet c base rows).windowRows (c.inputSize + j))
    (fun r hrm => normRow_bc (hr r (List.mem_of_mem_drop (List.mem_of_mem_take hrm))))
  obtain ⟨y, hy⟩ := normRow_bc (mn := (inferSet c base rows).mins) (mx := (inferSet c base rows).maxs)
    (lo := (inferSet c base rows).clipMin) (hi := (inferSet c base rows).clipMax)
    (hr _ (List.getElem_mem (show c.inputSize + j < rows.length by omega)))
  exact ⟨_, ebind_ok.2 ⟨_, h1, ebind_ok.2 ⟨_, hx, ebind_ok.2 ⟨_, hy, rfl⟩⟩⟩⟩

theorem detectWith_packs {TS} {E : MEnv TS} {d : Det} (hd : d.Good) {c : Config} {base : List ℚ × List ℚ} {N : Net}
    {pct : List ℚ} (hU : Usable d c base N pct) {th : ℚ} (hth : d.threshold = some th) {f : Frame} {t : Table}
    (hi : t.index.length = f.index.length) (ht : t.names.length = t.cols.length) (hcols : t.names.length = c.dataDim ∨ t.names.length = 1)
    (hrows : c.thresholdWindow + c.inputSize ≤ f.index.length) : ∃ anom scores severity contrib attn,
      detectWith E d f t = lift (packResponse E.toNumEnv f.index t.names anom scores severity contrib attn) ∧ 0 < anom.length ∧
      anom.length ≤ f.index.length ∧ ∀ k < anom.length, (contrib.getD k []).length = c.dataDim ∧ ∀ v < c.dataDim, ((attn.getD k []).getD v []).length = c.dataDim := by
  have hcg := hd.config _ hU.loaded.config
  have hmg := hd.model _ hU.loaded.model
  have hlow := hU.low
  have hhigh := hU.high
  have hin : 0 < c.inputSize := lt_of_lt_of_le hcg.kernel hU.kernel
  have htw := hcg.tw hin
  have hrl : t.rows.length = f.index.length := by rw [rows_length, hi]
  have hrw : ∀ r ∈ t.rows, r.length = t.names.length := by
    intro r hr
    rw [rows_width t r hr, ← ht]
  obtain ⟨ss, hss⟩ := bcSamples_total (E := E.toNumEnv) (c := c) (base := base) (rows := t.rows)
    (fun r hr => by rw [hrw r hr, hlow]; exact hcols)
  obtain ⟨hsl, hs⟩ := inferSamples_ok (show base.2.length = base.1.length by omega) hrw hss
  have hbc : bcLen t.names.length base.2.length = c.dataDim := by
    rw [hlow]
    unfold bcLen
    rcases hcols with h | h <;> simp [h]
  have hfit : ∀ s ∈ ss, Fits c s.input := by
    intro s hsm
    obtain ⟨j, hj, rfl⟩ := List.mem_iff_getElem.1 hsm
    refine ⟨by rw [(hs j hj).len]; exact hU.kernel, fun r hr => ?_⟩
    rw [(hs j hj).width r hr]
    exact hbc
  have hraw : ∀ s ∈ ss, (rawRow E.toNumEnv c N s).length = c.dataDim := by
    intro s hsm
    obtain ⟨i, hi, rfl⟩ := List.mem_iff_getElem.1 hsm
    unfold rawRow
    rw [List.length_zipWith, pred_length hmg.2, (hs i hi).twidth]
    show min c.dataDim (bcLen t.names.length base.2.length) = _
    rw [hbc, Nat.min_self]
  obtain ⟨wt, hwt⟩ := mapM_total (f := fun r => weightRow r pct) (l := ss.map (rawRow E.toNumEnv c N)) (by
    intro r hr
    obtain ⟨s, hsm, rfl⟩ := List.mem_map.1 hr
    obtain ⟨y, hy, -⟩ := hU.weigh _ (hraw s hsm)
    exact ⟨y, hy⟩)
  have hwl := mapM_ok_length hwt
  rw [List.length_map] at hwl
  have hwne : wt ≠ [] := by
    intro e
    rw [e] at hwl
    simp at hwl
    omega
  have hwlen : ∀ y ∈ wt, y.length = c.dataDim := by
    intro y hy
    obtain ⟨k, hk, rfl⟩ := List.mem_iff_getElem.1 hy
    have h0 := mapM_ok_get hwt (i := k) (by simp; omega)
    rw [List.getElem_map] at h0
    obtain ⟨y, hy, hyl⟩ := hU.weigh _ (hraw ss[k] (List.getElem_mem _))
    rw [hy] at h0
    cases h0
    exact hyl
  have hinf : inference E d t.rows = .ok (collected ⟨none, none, none⟩ wt
      (ss.map fun s => (sampleOut E.toNumEnv c N s.input).attn)) := by
    unfold inference
    rw [hU.loaded.config]
    dsimp only
    rw [hU.loaded.base]
    dsimp only
    rw [hU.loaded.model]
    dsimp only
    rw [hU.loaded.pct]
    dsimp only
    rw [lift_ok]
    rw [hss]
    exact (inferFold_ok hmg.1.dim hmg.1.gat hcg.batch ss _ _).2 ⟨hfit, wt, hwt, rfl⟩
  unfold detectWith
  dsimp only
  rw [hU.loaded.config]
  dsimp only
  rw [if_neg (by omega), hth]
  dsimp only
  rw [hinf]
  rw [ok_bind_eq]
  simp only [collected, if_neg hwne, appendResult]
  obtain ⟨ths, hths⟩ : ∃ ths, dynThresholds c.thresholdWindow (wt.map npMean) = .ok ths := by
    unfold dynThresholds
    apply mapM_total
    intro i hi'
    apply getThreshold_total
    obtain ⟨k, hk, rfl⟩ := List.mem_map.1 hi'
    rw [List.length_drop, List.length_take]
    have := hcg.tw_le
    omega
  rw [hths, lift_ok.2 rfl, ok_bind_eq]
  have hthl : ths.length = ss.length - (c.thresholdWindow - 1) := by
    have := mapM_ok_length hths
    simp only [List.length_map, List.length_range] at this
    omega
  set scores' := (wt.map npMean).drop (c.thresholdWindow - 1) with hsc
  have hscl : scores'.length = ss.length - (c.thresholdWindow - 1) := by rw [hsc]; simp; omega
  set anom := List.zipWith (decideAnomaly (min (3 / 10) th) (max (1 / 2) th)) scores' ths with hanom
  have hanl : anom.length = ss.length - (c.thresholdWindow - 1) := by rw [hanom, List.length_zipWith]; omega
  have hanl' : anom.length = ss.length + 1 - c.thresholdWindow := by omega
  set A : Nat → List (List ℚ) := fun j =>
    if hj : j < ss.length then (sampleOut E.toNumEnv c N ss[j].input).attn
    else (List.replicate c.dataDim (List.replicate c.dataDim 0)) with hA
  have hAs : (ss.map fun s => (sampleOut E.toNumEnv c N s.input).attn) = (List.range ss.length).map A := by
    apply List.ext_getElem
    · simp
    · intro j h1 h2
      have : j < ss.length := by simpa using h1
      simp [hA, this]
  have hAl : ∀ j, (A j).length = c.dataDim ∧ ∀ r ∈ A j, r.length = c.dataDim := by
    intro j
    simp only [hA]
    split
    · exact attn_length _
    · simp
  rw [hAs, hanl', attnChange_eq htw (by omega) hAl]
  set AT := (List.range (ss.length + 1 - c.thresholdWindow)).map fun k =>
    (List.range c.dataDim).map fun i => (List.range c.dataDim).map fun j =>
      ((A (c.thresholdWindow - 1 + k)).getD i []).getD j 0 -
        ((List.range c.thresholdWindow).map fun a => ((A (k + a)).getD i []).getD j 0).sum / c.thresholdWindow with hAT
  have hATl : ∀ k, k < ss.length + 1 - c.thresholdWindow → ∀ v, v < c.dataDim → ((AT.getD k []).getD v []).length = c.dataDim := by
    intro k hk v hv
    have e : AT.getD k [] = (List.range c.dataDim).map fun i => (List.range c.dataDim).map fun j =>
      ((A (c.thresholdWindow - 1 + k)).getD i []).getD j 0 -
        ((List.range c.thresholdWindow).map fun a => ((A (k + a)).getD i []).getD j 0).sum / c.thresholdWindow := by
      rw [hAT, List.getD_eq_getElem _ _ (by simpa using hk), List.getElem_map, List.getElem_range]
    rw [e, List.getD_eq_getElem _ _ (by simpa using hv), List.getElem_map, List.length_map, List.length_range]
  refine ⟨anom, scores', _, _, AT, rfl, by omega, by omega, fun k hk => ⟨?_, fun v hv => hATl k (by omega) v hv⟩⟩
  have hlt : c.thresholdWindow - 1 + k < wt.length := by omega
  rw [List.getD_eq_getElem _ _ (by simp; omega), List.getElem_drop, List.getElem_map, List.length_map, hwlen _ (List.getElem_mem hlt)]

/-! ### the failing tables -/

theorem mapM_error {α β ε} {f : α → Except ε β} {e : ε} {l : List α} (h : ∀ a ∈ l, (∃ b, f a = .ok b) ∨ f a = .error e) {a : α} (ha : a ∈ l)
    (he : f a = .error e) : l.mapM f = .error e := by
  induction l with
  | nil => cases ha
  | cons x l ih =>
    rw [List.mapM_cons]
    rcases h x (by simp) with ⟨b, hb⟩ | hb
    · rw [hb]
      rcases List.mem_cons.1 ha with rfl | ha
      · rw [he] at hb; cases hb
      · rw [ih (fun y hy => h y (by simp [hy])) ha]
        rfl
    · rw [hb]; rfl

theorem varName_cases (vars : List String) (k : Nat) : (∃ b, varName vars k = .ok b) ∨ varName vars k = .error .indexError := by
  unfold varName
  cases vars[k]? with
  | none => exact .inr rfl
  | some s => exact .inl ⟨s, rfl⟩

theorem mapM_cases {α β ε} {f : α → Except ε β} {e : ε} {l : List α} (h : ∀ a ∈ l, (∃ b, f a = .ok b) ∨ f a = .error e) :
    (∃ r, l.mapM f = .ok r) ∨ l.mapM f = .error e := by
  by_cases hh : ∃ a ∈ l, f a = .error e
  · obtain ⟨a, ha, he⟩ := hh
    exact .inr (mapM_error h ha he)
  · exact .inl (mapM_total fun a ha => (h a ha).resolve_right fun he => hh ⟨a, ha, he⟩)

theorem packVar_cases (E : NumEnv) (vars : List String) (contrib : List PyFloat) (attn : List (List ℚ)) (v : Nat) :
    (∃ b, packVar E vars contrib attn v = .ok b) ∨ packVar E vars contrib attn v = .error .indexError := by
  unfold packVar
  dsimp only
  rcases mapM_cases (f := varName vars) (e := .indexError) (fun a _ => varName_cases vars a)
    (l := (List.take 10 (E.argsortDesc ((attn.getD v []).map fun x => .fin |x|))).filter fun k => cutoff vars.length < |(attn.getD v []).getD k 0|) with
    ⟨r, hr⟩ | hr
  · rw [hr]
    rcases varName_cases vars v with ⟨b, hb⟩ | hb
    · rw [hb]; exact .inl ⟨_, rfl⟩
    · rw [hb]; exact .inr rfl
  · rw [hr]; exact .inr rfl

theorem packVar_beyond {E : NumEnv} {vars : List String} {contrib : List PyFloat} {attn : List (List ℚ)} {v : Nat} (h : vars.length ≤ v) :
    packVar E vars contrib attn v = .error .indexError := by
  rcases packVar_cases E vars contrib attn v with ⟨b, hb⟩ | hb
  · unfold packVar at hb
    obtain ⟨ns, -, hb⟩ := ebind_ok.1 hb
    obtain ⟨n, hn, -⟩ := ebind_ok.1 hb
    unfold varName at hn
    rw [List.getElem?_eq_none h] at hn
    cases hn
  · exact hb

theorem packResponse_beyond {E : NumEnv} (hE : E.WF) {index : List Int} {vars : List String} {anom : List Bool} {scores severity : List ℚ}
    {contrib : List (List PyFloat)} {attn : List (List (List ℚ))} (h0 : 0 < anom.length) (h1 : anom.length ≤ index.length)
    (h2 : ∀ k < anom.length, vars.length < (contrib.getD k []).length) :
    packResponse E index vars anom scores severity contrib attn = .error .indexError := by
  unfold packResponse
  rw [if_neg (by omega)]
  have key : ∀ k < anom.length, packItem E vars (index.getD (index.length - anom.length + k) 0) (anom.getD k false) (scores.getD k 0)
      (severity.getD k 0) (contrib.getD k []) (attn.getD k []) = .error .indexError := by
    intro k hk
    unfold packItem
    rw [mapM_error (e := .indexError) (fun a _ => packVar_cases E vars _ _ a) (a := vars.length)
      ((hE.argsort_perm _).mem_iff.2 (List.mem_range.2 (h2 k hk))) (packVar_beyond le_rfl)]
    rfl
  exact mapM_error (fun k hk => .inr (key k (List.mem_range.1 hk))) (List.mem_range.2 h0) (key 0 h0)

/-- a row that cannot be broadcast against the range -/
theorem normRow_refused {mn mx : List ℚ} {lo hi : ℚ} {row : List ℚ} (h1 : row.length ≠ mn.length) (h2 : row.length ≠ 1) (h3 : mn.length ≠ 1) :
    normRow mn mx lo hi row = .error .valueError := by
  unfold normRow
  rw [if_neg h1]
  split
  · simp at h2
  · simp at h3
  · rfl

theorem refusedSamples {E : NumEnv} {c : Config} {base : List ℚ × List ℚ} {rows : List (List ℚ)} (hi : 0 < c.inputSize)
    (hn : c.inputSize < rows.length) (h : ∀ r ∈ rows, r.length ≠ base.2.length ∧ r.length ≠ 1) (h1 : base.2.length ≠ 1) :
    (inferSet c base rows).samples E = .error .valueError := by
  have hnorm : ∀ r ∈ rows, normRow base.2 base.1 (-1000) 1000 r = .error .valueError := fun r hr => normRow_refused (h r hr).1 (h r hr).2 h1
  have key : ∀ j < rows.length - c.inputSize, (inferSet c base rows).get E (c.inputSize + j) = .error .valueError := by
    intro j hj
    have e1 : pyIndex (inferSet c base rows).data ((c.inputSize + j : Nat) - 1 + (inferSet c base rows).horizon : Int) =
        .ok (rows[c.inputSize + j]'(by omega)) := by
      rw [← pyIndex_ok (l := rows) (i := c.inputSize + j) (by omega)]
      show pyIndex rows _ = _
      congr 1
      simp [inferSet]
    unfold Dataset.get
    rw [e1, ok_bind_eq]
    have hw : rows[j]'(by omega) ∈ (inferSet c base rows).windowRows (c.inputSize + j) := by
      unfold Dataset.windowRows
      rw [List.mem_take_iff_getElem]
      refine ⟨0, ?_, ?_⟩
      · simp only [inferSet, List.length_drop]
        omega
      · rw [List.getElem_drop]
        congr 1
        simp [inferSet]
    have e2 : ((inferSet c base rows).windowRows (c.inputSize + j)).mapM (normRow base.2 base.1 (-1000) 1000) = .error .valueError :=
      mapM_error (fun r hr => .inr (hnorm r (List.mem_of_mem_drop (List.mem_of_mem_take hr)))) hw (hnorm _ (List.getElem_mem _))
    show (((inferSet c base rows).windowRows (c.inputSize + j)).mapM (normRow base.2 base.1 (-1000) 1000) >>= _) = _
    rw [e2]
    rfl
  unfold Dataset.samples
  rw [inferSet_ends]
  refine mapM_error (a := c.inputSize + 0) (fun x hx => ?_) (List.mem_map.2 ⟨0, List.mem_range.2 (by omega), rfl⟩) (key 0 (by omega))
  obtain ⟨j, hj, rfl⟩ := List.mem_map.1 hx
  exact .inr (key j (List.mem_range.1 hj))

/-- a table of several columns for a network of one variable -/
theorem wideSamples {E : NumEnv} {c : Config} {base : List ℚ × List ℚ} {rows : List (List ℚ)} (h1 : base.2.length = 1) (h2 : base.1.length = 1) :
    ∃ ss, (inferSet c base rows).samples E = .ok ss := by
  obtain ⟨a, ha⟩ := List.length_eq_one_iff.1 h1
  obtain ⟨b, hb⟩ := List.length_eq_one_iff.1 h2
  have hnorm : ∀ r, ∃ y, normRow base.2 base.1 (-1000) 1000 r = .ok y := by
    intro r
    rw [ha, hb]
    unfold normRow
    split
    · exact ⟨_, rfl⟩
    · split
      · exact ⟨_, rfl⟩
      · exact ⟨_, rfl⟩
      · rename_i h
        exact (h a b rfl rfl).elim
  unfold Dataset.samples
  rw [inferSet_ends]
  apply mapM_total
  intro hi hhi
  obtain ⟨j, hj, rfl⟩ := List.mem_map.1 hhi
  rw [List.mem_range] at hj
  unfold Dataset.get
  have e1 : pyIndex (inferSet c base rows).data ((c.inputSize + j : Nat) - 1 + (inferSet c base rows).horizon : Int) =
      .ok (rows[c.inputSize + j]'(by omega)) := by
    rw [← pyIndex_ok (l := rows) (i := c.inputSize + j) (by omega)]
    show pyIndex rows _ = _
    congr 1
    simp [inferSet]
  obtain ⟨x, hx⟩ := mapM_total (f := normRow base.2 base.1 (-1000) 1000) (l := (inferSet c base rows).windowRows (c.inputSize + j))
    (fun r _ => hnorm r)
  obtain ⟨y, hy⟩ := hnorm (rows[c.inputSize + j]'(by omega))
  exact ⟨_, ebind_ok.2 ⟨_, e1, ebind_ok.2 ⟨_, hx, ebind_ok.2 ⟨_, hy, rfl⟩⟩⟩⟩

namespace Spec

/-- how `predict` ends on a table of `rows` rows and `cols` columns for a detector trained with `dim` columns that needs `need` rows -/
def predictEnds (dim need rows cols : Nat) : Option PyErr :=
  if rows < need then some .valueError
  else if cols = dim then none
  else if cols = 1 then some .indexError
  else if dim = 1 then some .runtimeError
  else some .valueError

end Spec

theorem detectWith_ends {TS} {E : MEnv TS} (hE : E.WF) {d : Det} (hd : d.Good) {c : Config} {base : List ℚ × List ℚ} {N : Net}
    {pct : List ℚ} (hU : Usable d c base N pct) {th : ℚ} (hth : d.threshold = some th) {f : Frame} {t : Table}
    (hi : t.index.length = f.index.length) (ht : t.names.length = t.cols.length) :
    match predictEnds c.dataDim (c.inputSize + c.thresholdWindow) f.index.length t.names.length with
    | none => ∃ items, detectWith E d f t = .ok items
    | some e => detectWith E d f t = .error (.err e) := by
  have hcg := hd.config _ hU.loaded.config
  have hlow := hU.low
  have hhigh := hU.high
  have hin : 0 < c.inputSize := lt_of_lt_of_le hcg.kernel hU.kernel
  have htw := hcg.tw hin
  have hrl : t.rows.length = f.index.length := by rw [rows_length, hi]
  have hrw : ∀ r ∈ t.rows, r.length = t.names.length := by
    intro r hr
    rw [rows_width t r hr, ← ht]
  unfold predictEnds
  by_cases h1 : f.index.length < c.inputSize + c.thresholdWindow
  · rw [if_pos h1]
    dsimp only
    unfold detectWith
    dsimp only
    rw [hU.loaded.config]
    dsimp only
    rw [if_pos (by omega)]
  rw [if_neg h1]
  by_cases h2 : t.names.length = c.dataDim
  · rw [if_pos h2]
    exact detectWith_total hE hd hU hth hi ht h2 (by omega)
  rw [if_neg h2]
  by_cases h3 : t.names.length = 1
  · rw [if_pos h3]
    dsimp only
    obtain ⟨anom, scores, severity, contrib, attn, he, h0, hle, hk⟩ := detectWith_packs (E := E) hd hU hth hi ht (.inr h3) (by omega)
    have hdim := hcg.dim
    rw [he, packResponse_beyond hE.num h0 hle (fun k hk' => by rw [(hk k hk').1]; omega)]
    rfl
  rw [if_neg h3]
  have hstart : ∀ {e : PyErr}, inference E d t.rows = .error (.err e) → detectWith E d f t = .error (.err e) := by
    intro e he
    unfold detectWith
    dsimp only
    rw [hU.loaded.config]
    dsimp only
    rw [if_neg (by omega), hth]
    dsimp only
    rw [he]
    rfl
  have hinf : inference E d t.rows = lift (do
      let samples ← (inferSet c base t.rows).samples E.toNumEnv
      (chunk c.batchSize samples).foldlM (inferBatch E.toNumEnv c N pct) ⟨none, none, none⟩) := by
    unfold inference
    rw [hU.loaded.config]
    dsimp only
    rw [hU.loaded.base]
    dsimp only
    rw [hU.loaded.model]
    dsimp only
    rw [hU.loaded.pct]
  by_cases h4 : c.dataDim = 1
  · rw [if_pos h4]
    apply hstart
    obtain ⟨ss, hss⟩ := wideSamples (E := E.toNumEnv) (c := c) (rows := t.rows) (hlow.trans h4) (hhigh.trans h4)
    obtain ⟨hsl, hs⟩ := inferSamples_ok (show base.2.length = base.1.length by omega) hrw hss
    have hss0 : 0 < ss.length := by omega
    have hb : inferBatch E.toNumEnv c N pct ⟨none, none, none⟩ (ss.take c.batchSize) = .error .runtimeError := by
      unfold inferBatch
      rw [forward_error]
      · rfl
      · intro hall
        have hmem : ss[0] ∈ ss.take c.batchSize := by
          have hb := hcg.batch
          rw [List.mem_take_iff_getElem]
          exact ⟨0, by omega, rfl⟩
        have hlen : ss[0].input.length = c.inputSize := (hs 0 hss0).len
        have hpos : 0 < ss[0].input.length := by omega
        have hw := (hall _ (List.mem_map.2 ⟨_, hmem, rfl⟩)).2 _ (List.getElem_mem hpos)
        rw [(hs 0 hss0).width _ (List.getElem_mem hpos)] at hw
        have hbc : bcLen t.names.length base.2.length = t.names.length := by
          rw [hlow, h4]
          unfold bcLen
          rw [if_neg h3, if_neg h3]
        have : bcLen t.names.length (inferSet c base t.rows).mins.length = t.names.length := hbc
        omega
    rw [hinf, hss, ok_bind_eq, chunk_cons hcg.batch (List.length_pos_iff.1 hss0), List.foldlM_cons, hb]
    rfl
  · rw [if_neg h4]
    apply hstart
    rw [hinf, refusedSamples hin (by omega) (fun r hr => ?_) (by omega)]
    · rfl
    · rw [hrw r hr]
      omega

/-- **C122**. After a `fit` in which some epoch had a loss below infinity, the end of a usable `predict` request is decided by the numbers of
rows and columns of its table as `predictEnds` lists it. -/
theorem C122_ends {TS} {E : MEnv TS} (hE : E.WF) {data : MData} {w w' : World} (hw : Reachable E w)
    (h : Multi.fit E data w = (w', .ok ())) :
    ∃ f t c train val ts vs, data = .frame f ∧ Prepared E w.params f t c train val ts vs ∧
      ((∃ j < c.epochs.toNat, (epochLoss E c ts vs j).lt .pinf = true) →
        ∀ p f2 t2 c2, Accepted E p f2 t2 c2 →
          match predictEnds t.names.length (c.inputSize + c.thresholdWindow) f2.index.length t2.names.length with
          | none => ∃ items, (Multi.predict E (.frame f2) { w' with params := p }).2 = .ok items
          | some e => (Multi.predict E (.frame f2) { w' with params := p }).2 = .error (.err e)) := by
  have hg : w'.Good := by
    have := (Reachable.fit data hw).good hE
    rwa [h] at this
  obtain ⟨f, t, c, hd, ⟨R⟩⟩ := fit_ok h
  have hp := R.prepared hE
  refine ⟨f, t, c, R.train, R.val, R.ts, R.vs, hd, hp, fun hb p f2 t2 c2 ha => ?_⟩
  obtain ⟨base, N, hU, th, hth, -⟩ := usable_of_fit hE hg R ((C58_exists _ _).1 hb)
  obtain ⟨s, hs⟩ := processData_run (w := { w' with params := p }) ha
  obtain ⟨-, ⟨P, hP, htab⟩, -⟩ := ha
  obtain ⟨hi, ht⟩ := processed_sizes hE.table htab
  have hens : MM.Returns ensureModel { w' with params := p.after s t2.names.length } { w' with params := p.after s t2.names.length } () := by
    unfold MM.Returns ensureModel
    dsimp only
    rw [hU.loaded.model]
  have hrun : Multi.predict E (.frame f2) { w' with params := p } =
      ({ w' with params := p.after s t2.names.length }, detectWith E w'.det f2 t2) := by
    unfold Multi.predict
    rw [MM.run_bind hs]
    dsimp only
    rw [MM.run_bind hens, MM.run_bind (MM.get_ok.2 ⟨rfl, rfl⟩)]
    rfl
  rw [hrun, ← hp.dim]
  exact detectWith_ends hE hg.det hU hth hi ht

/-! ### concrete cases -/

/-- seven rows and one column -/
def narrowTable : Frame := ⟨[20, 21, 22, 23, 24, 25, 26], [column "a" [1, 2, 1, 2, 9, 2, 1]]⟩

/-- seven rows and three columns -/
def wideTable : Frame := ⟨[20, 21, 22, 23, 24, 25, 26],
  [column "b" [5, 6, 5, 6, 5, 6, 5], column "a" [1, 2, 1, 2, 9, 2, 1], column "c" [1, 2, 1, 2, 9, 2, 1]]⟩

/-- the detector of the demonstration, trained on the one column of a table -/
def narrowTrained : World :=
  { (Multi.fit (demoE loss0) (.frame ⟨demoTrain.index, [column "a" [1, 2, 1, 3, 1, 2, 1, 2, 1, 2]]⟩) demoStart).1 with params := demoParams }

/-- The trained demonstration detector on tables with the right number of columns, one column, three columns, and too few rows. -/
example : returned (Multi.predict (demoE loss0) (.frame demoTest) demoTrained).2 (fun _ => true) = true ∧
    raised (Multi.predict (demoE loss0) (.frame narrowTable) demoTrained).2 .indexError = true ∧
    raised (Multi.predict (demoE loss0) (.frame wideTable) demoTrained).2 .valueError = true ∧
    raised (Multi.predict (demoE loss0) (.frame demoShort) demoTrained).2 .valueError = true ∧
    raised (Multi.predict (demoE loss0) (.frame wideTable) narrowTrained).2 .runtimeError = true := by decide +kernel

/-- The hypotheses of `C122_ends` can be met. -/
example : ∃ w' t c, Reachable (demoE loss2) demoEpochs ∧ Multi.fit (demoE loss2) (.frame demoTrain) demoEpochs = (w', .ok ()) ∧
    Accepted (demoE loss2) demoParams narrowTable t c := by
  obtain ⟨w', u, h, -⟩ := returned_ok (x := Multi.fit (demoE loss2) (.frame demoTrain)) (w := demoEpochs) (test := fun _ => true)
    (by decide +kernel)
  have hr : returned (processData (demoE loss2) (.frame narrowTable) demoStart).2 (fun _ => true) = true := by decide +kernel
  obtain ⟨w2, ⟨f', t, c⟩, h2, -⟩ := returned_ok (x := processData (demoE loss2) (.frame narrowTable)) hr
  exact ⟨w', t, c, Reachable.start _ _ (fun _ _ h => by cases h), h, accepted_of h2⟩

end Verif
