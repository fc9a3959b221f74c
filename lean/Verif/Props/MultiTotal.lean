import Verif.Props.MultiWeights
import Verif.Props.MultiCalls

/-!
# Theorems: the trained threshold, and when a trained detector answers
-/

namespace Verif

open Multi Spec

/-! ### the weights have at most as many entries as the table has columns -/

theorem selected_length (f : Frame) (names : List String) :
    (selectCols f names).cols.length = (names.map fun n => f.cols.countP fun c => c.name = n).sum := by
  unfold selectCols
  simp only
  rw [List.length_flatMap]
  congr 1
  apply List.map_congr_left
  intro n _
  rw [List.countP_eq_length_filter]

theorem pct_length {w : Nat} {f : Frame} {l : List ℚ} (h : pctWeight w f = .ok l) :
    l.length ≤ (selectCols f (sortedNames f)).cols.length := by
  unfold pctWeight at h
  dsimp only at h
  set f1 : Frame := ⟨f.index, f.cols.filter fun c => c.name ≠ "timestamp"⟩ with hf1
  split at h
  · cases h
  · rename_i cols hcols
    split at h
    · cases h
    · cases h
      rw [List.length_map, List.length_map, mapM_astype hcols, List.length_map, selected_length, selected_length,
        ((sortedNames_perm f1).map _).sum_eq, ((sortedNames_perm f).map _).sum_eq]
      have hsub : f1.cols.Sublist f.cols := List.filter_sublist
      calc ((f1.cols.map (·.name)).map fun n => f1.cols.countP fun c => c.name = n).sum
          ≤ ((f1.cols.map (·.name)).map fun n => f.cols.countP fun c => c.name = n).sum := by
            apply List.sum_le_sum
            intro n _
            exact hsub.countP_le
        _ ≤ ((f.cols.map (·.name)).map fun n => f.cols.countP fun c => c.name = n).sum := by
            apply List.Sublist.sum_le_sum ((hsub.map _).map _)
            intro x _
            omega

theorem pct_length_names {E : TableEnv} {P : Processor} {w : Nat} {f : Frame} {t : Table} {l : List ℚ}
    (h : pctWeight w f = .ok l) (ht : P.process E (.frame f) = .ok t) : l.length ≤ t.names.length := by
  refine le_trans (pct_length h) ?_
  obtain ⟨g, hg, -, -, h2, -⟩ := process_ok ht
  cases hg
  rw [h2, sortedNames_eq, List.length_map, selected_length, selected_length]
  apply le_of_eq
  congr 1
  apply List.map_congr_left
  intro n _
  unfold sortIndex
  simp only [List.countP_map]
  rfl

/-! ### what a training leaves -/

/-- a detector that can score tables of `d` columns -/
structure Usable (d : Det) (c : Config) (base : List ℚ × List ℚ) (N : Net) (pct : List ℚ) : Prop where
  loaded : Loaded d c base c N pct
  low : base.2.length = c.dataDim
  high : base.1.length = c.dataDim
  kernel : c.kernel ≤ c.inputSize
  weigh : ∀ row : List ℚ, row.length = c.dataDim → ∃ y, weightRow row pct = .ok y ∧ y.length = c.dataDim


theorem usable_of_fit {TS} {E : MEnv TS} (hE : E.WF) {w w' : World} (hw : w'.Good) {f : Frame} {t : Table} {c : Config}
    (R : FitRun E w w' f t c) (hb : ∃ i, IsBest (epochLoss E c R.ts R.vs) c.epochs.toNat i) :
    ∃ base N, Usable w'.det c base N R.pct ∧
      (let S := scorer E.toNumEnv c base c N R.pct
       ∃ th, w'.det.threshold = some th ∧ S.scores R.train S.input (R.train.length - S.input) ≠ [] ∧
        pyIndex (sortQ (S.scores R.train S.input (R.train.length - S.input)))
          (intMul (S.scores R.train S.input (R.train.length - S.input)).length c.level) = .ok th ∧
        w'.det.scoreMax = some (npMax (S.scores R.train S.input (R.train.length - S.input))) ∧
        w'.det.scoreMin = some (npMin (S.scores R.train S.input (R.train.length - S.input)))) := by
  have hp := R.prepared hE
  obtain ⟨ho, -, hct, h1, h2, h3⟩ := R.outcome
  obtain ⟨i, hi⟩ := hb
  rcases ho.restored with ⟨j, -, hc, hm, hpct, -, -⟩ | ⟨hall, -⟩
  swap
  · have := hall i hi.lt
    rw [hi.below] at this
    cases this
  unfold computeThresholds at hct
  obtain ⟨o, hinf, hct⟩ := ebind_ok.1 hct
  obtain ⟨c', base, m, N, pct, ss, wt, hL, hss, hfit, hwt, rfl⟩ := inference_inv hw.det hinf
  have e1 : c' = c := by have := hL.config; rw [hc] at this; cases this; rfl
  subst e1
  have e2 : m = c' ∧ netAfter E c' R.ts (j + 1) = some N := by
    have := hL.model
    rw [hm] at this
    simp only [Option.some.injEq, NetObj.mk.injEq] at this
    exact ⟨this.1.symm, this.2⟩
  obtain ⟨rfl, -⟩ := e2
  have e3 : pct = R.pct := by have := hL.pct; rw [hpct] at this; cases this; rfl
  subst e3
  have hmg := hw.det.model _ hL.model
  obtain ⟨maxs, mins, hbase, hbl1, hbl2, -⟩ := hp.range
  have e4 : base = (maxs, mins) := by have := hL.base; rw [hbase] at this; cases this; rfl
  subst e4
  obtain ⟨hok, ⟨P, hP, htab⟩, -⟩ := hp.accepted
  have htl := (processed_sizes hE.table htab).2
  have hrw : ∀ r ∈ R.train, r.length = m.dataDim := by
    intro r hr
    rw [hp.train_eq] at hr
    rw [rows_width t r (List.mem_of_mem_take hr), hp.dim, htl]
  obtain ⟨hsl, hs⟩ := inferSamples_ok (show (maxs, mins).2.length = (maxs, mins).1.length by simp only; omega) hrw hss
  have hwl := mapM_ok_length hwt
  rw [List.length_map] at hwl
  have hbc : bcLen m.dataDim mins.length = m.dataDim := by rw [hbl2]; unfold bcLen; simp
  have hwne : wt ≠ [] := by
    intro e
    rw [e] at hct
    simp [collected, hc] at hct
  have hss0 : 0 < ss.length := by rw [← hwl]; exact List.length_pos_iff.2 hwne
  have hs0 := hs 0 hss0
  have hf0 := hfit _ (List.getElem_mem hss0)
  have hlen0 : ss[0].input.length = m.inputSize := hs0.len
  have hker : m.kernel ≤ m.inputSize := by have := hf0.1; omega
  have hraw : ∀ s ∈ ss, (rawRow E.toNumEnv m N s).length = m.dataDim := by
    intro s hsm
    obtain ⟨i, hi, rfl⟩ := List.mem_iff_getElem.1 hsm
    unfold rawRow
    rw [List.length_zipWith, pred_length hmg.2, (hs i hi).twidth]
    show min m.dataDim (bcLen m.dataDim mins.length) = _
    rw [hbc, Nat.min_self]
  have hple : R.pct.length ≤ m.dataDim := by rw [hp.dim]; exact pct_length_names R.pct_eq htab
  have hpne : R.pct ≠ [] := (hw.det.pct _ hL.pct).1
  have hppos := List.length_pos_iff.2 hpne
  have hweigh : ∀ row : List ℚ, row.length = m.dataDim → ∃ y, weightRow row R.pct = .ok y ∧ y.length = m.dataDim := by
    intro row hrow
    have h0 := mapM_ok_get hwt (i := 0) (by simpa using hss0)
    rw [List.getElem_map] at h0
    obtain ⟨y, hy⟩ := weightRow_lengths (row' := row) (by rw [hraw _ (List.getElem_mem hss0), hrow]) ⟨_, h0⟩
    refine ⟨y, hy, ?_⟩
    rcases (weightRow_ok hy).1 with h5 | h5
    · omega
    · omega
  have hlen : ∀ y ∈ wt, y.length = m.dataDim := by
    intro y hy
    obtain ⟨k, hk, rfl⟩ := List.mem_iff_getElem.1 hy
    have h0 := mapM_ok_get hwt (i := k) (by simp; omega)
    rw [List.getElem_map] at h0
    obtain ⟨y, hy, hyl⟩ := hweigh _ (hraw ss[k] (List.getElem_mem _))
    rw [hy] at h0
    cases h0
    exact hyl
  obtain ⟨ew, -⟩ := inference_rows (show (maxs, mins).2.length = (maxs, mins).1.length by simp only; omega) hmg.2 hrw hbc hss hwt
    hlen
  set S := scorer E.toNumEnv m (maxs, mins) m N R.pct with hS
  have hsc : wt.map npMean = S.scores R.train S.input (R.train.length - S.input) := by
    rw [ew, List.map_map]
    unfold Scorer.scores
    apply List.map_congr_left
    intro j _
    show npMean _ = S.score R.train (m.inputSize + j)
    unfold npMean Scorer.score
    simp [hS, scorer]
  refine ⟨(maxs, mins), N, ⟨hL, hbl2, hbl1, hker, hweigh⟩, R.th.1, h1, ?_⟩
  simp only [collected, if_neg hwne, appendResult, hc] at hct
  obtain ⟨th, hth, hct⟩ := ebind_ok.1 hct
  rw [lift_ok] at hth
  rw [epure_ok] at hct
  rw [← hsc]
  refine ⟨by simpa using hwne, ?_, ?_, ?_⟩
  · rw [hth, ← hct]
  · rw [h2, ← hct]
  · rw [h3, ← hct]

/-- **C73**. After a `fit` in which some epoch had a loss below infinity, the trained threshold is the order statistic of rank
`⌊n·level⌋` (counted from 0, the product rounded to a double) of the `n` scores of the training rows from `input_size` on, and `n` is not 0.
The detector's score range is that of these scores. -/
theorem C73_threshold {TS} {E : MEnv TS} (hE : E.WF) {data : MData} {w w' : World} (hw : Reachable E w)
    (h : Multi.fit E data w = (w', .ok ())) :
    ∃ f t c train val ts vs, data = .frame f ∧ Prepared E w.params f t c train val ts vs ∧
      ((∃ j < c.epochs.toNat, (epochLoss E c ts vs j).lt .pinf = true) →
        ∃ S th lo hi, Trained E w'.det S c.thresholdWindow th ∧ S.input < train.length ∧
          IsRank (S.scores train S.input (train.length - S.input))
            ⌊dmul (train.length - S.input : Nat) c.level⌋₊ th ∧
          w'.det.scoreMax = some hi ∧ IsGreatest {x | x ∈ S.scores train S.input (train.length - S.input)} hi ∧
          w'.det.scoreMin = some lo ∧ IsLeast {x | x ∈ S.scores train S.input (train.length - S.input)} lo) := by
  have hg : w'.Good := by
    have := (Reachable.fit data hw).good hE
    rwa [h] at this
  obtain ⟨f, t, c, hd, ⟨R⟩⟩ := fit_ok h
  refine ⟨f, t, c, R.train, R.val, R.ts, R.vs, hd, R.prepared hE, fun hb => ?_⟩
  obtain ⟨base, N, hU, th, hth, hne, hidx, h2, h3⟩ := usable_of_fit hE hg R ((C58_exists _ _).1 hb)
  set S := scorer E.toNumEnv c base c N R.pct with hS
  set l := S.scores R.train S.input (R.train.length - S.input) with hl
  have hll : l.length = R.train.length - S.input := by simp [hl, Scorer.scores]
  have hpos := List.length_pos_iff.2 hne
  refine ⟨S, th, npMin l, npMax l, scorer_trained hg.det hU.loaded hth, by omega, ?_, h2, ?_, h3, ?_⟩
  · have hlev := (hg.det.config c hU.loaded.config).level
    have e := intMul_toNat (n := l.length) hlev
    have el : ((R.train.length - S.input : Nat) : ℚ) = l.length := by rw [hll]
    rw [el]
    refine ⟨sortQ l, sortQ_perm l, sortQ_sorted l, ?_⟩
    rw [← e]
    have h0 : 0 ≤ intMul l.length c.level := by
      unfold intMul pyInt
      have h0 : 0 ≤ dmul l.length c.level := dmul_nonneg hlev
      rw [if_pos h0]
      exact Int.floor_nonneg.2 h0
    unfold pyIndex at hidx
    dsimp only at hidx
    rw [if_neg (by omega), if_neg (by omega)] at hidx
    split at hidx
    · rename_i a ha
      cases hidx
      exact ha
    · cases hidx
  · exact ⟨npMax_mem hne, fun x hx => le_npMax hx⟩
  · exact ⟨npMin_mem hne, fun x hx => npMin_le hx⟩

/-- **C73** (default level). Without the key `level` the rank in `C73_threshold` is `⌊8n/10⌋`. -/
theorem C73_default {TS} {E : MEnv TS} {p : Params} {f : Frame} {t : Table} {c : Config} {train val : List (List ℚ)} {ts vs : List Sample}
    (h : Prepared E p f t c train val ts vs) (hl : p "level" = none) {n : Nat} (hn : n < 2 ^ 40) : ⌊dmul n c.level⌋₊ = 8 * n / 10 := by
  obtain ⟨sizes, -, hc⟩ := h.accepted.config
  have e1 : (p.after sizes t.names.length) "level" = none := by simp [Params.after, hl]
  obtain ⟨-, -, h1⟩ := ofParams_ratios hc
  simp only [readRat, e1, Except.ok.injEq] at h1
  have h8 := intMul_toNat (n := n) lit8_pos.le
  rw [intMul8 hn, Int.toNat_natCast] at h8
  rw [show c.level = roundDouble (8 / 10) from h1.symm, ← h8]

/-! ### a trained detector answers -/

theorem mapM_total {α β ε} {f : α → Except ε β} {l : List α} (h : ∀ a ∈ l, ∃ b, f a = .ok b) : ∃ r, l.mapM f = .ok r := by
  induction l with
  | nil => exact ⟨[], rfl⟩
  | cons a l ih =>
    obtain ⟨b, hb⟩ := h a (by simp)
    obtain ⟨r, hr⟩ := ih fun x hx => h x (by simp [hx])
    exact ⟨b :: r, by rw [List.mapM_cons, hb, hr]; rfl⟩

theorem normRow_total {mn mx : List ℚ} {lo hi : ℚ} {row : List ℚ} (h : row.length = mn.length) :
    ∃ y, normRow mn mx lo hi row = .ok y := by
  unfold normRow
  rw [if_pos h]
  exact ⟨_, rfl⟩

theorem inferSamples_total {E : NumEnv} {c : Config} {base : List ℚ × List ℚ} {rows : List (List ℚ)}
    (hr : ∀ r ∈ rows, r.length = base.2.length) : ∃ ss, (inferSet c base rows).samples E = .ok ss := by
  unfold Dataset.samples
  rw [inferSet_ends]
  apply mapM_total
  intro hi hhi
  obtain ⟨j, hj, rfl⟩ := List.mem_map.1 hhi
  rw [List.mem_range] at hj
  unfold Dataset.get
  have h1 : pyIndex (inferSet c base rows).data ((c.inputSize + j : Nat) - 1 + (inferSet c base rows).horizon : Int) =
      .ok (rows[c.inputSize + j]'(by omega)) := by
    have := pyIndex_ok (l := rows) (i := c.inputSize + j) (by omega)
    rw [← this]
    show pyIndex rows _ = _
    congr 1
    simp [inferSet]
  obtain ⟨x, hx⟩ := mapM_total (f := normRow (inferSet c base rows).mins (inferSet c base rows).maxs
    (inferSet c base rows).clipMin (inferSet c base rows).clipMax) (l := (inferSet c base rows).windowRows (c.inputSize + j))
    (fun r hrm => normRow_total (hr r (List.mem_of_mem_drop (List.mem_of_mem_take hrm))))
  obtain ⟨y, hy⟩ := normRow_total (mn := (inferSet c base rows).mins) (mx := (inferSet c base rows).maxs)
    (lo := (inferSet c base rows).clipMin) (hi := (inferSet c base rows).clipMax)
    (hr _ (List.getElem_mem (show c.inputSize + j < rows.length by omega)))
  exact ⟨_, ebind_ok.2 ⟨_, h1, ebind_ok.2 ⟨_, hx, ebind_ok.2 ⟨_, hy, rfl⟩⟩⟩⟩

theorem getThreshold_total {l : List ℚ} (hn : l.length < 2 ^ 40) : ∃ x, getThreshold l = .ok x := by
  unfold getThreshold
  split
  · exact ⟨_, rfl⟩
  · rw [intMul95 hn, pyIndex_ok (by rw [length_sortQ]; omega)]
    exact ⟨_, rfl⟩

theorem packVar_total {E : NumEnv} (hE : E.WF) {vars : List String} {contrib : List PyFloat} {attn : List (List ℚ)} {v : Nat}
    (hv : v < vars.length) (ha : (attn.getD v []).length ≤ vars.length) : ∃ x, packVar E vars contrib attn v = .ok x := by
  unfold packVar
  dsimp only
  have hn : ∀ k, k < vars.length → varName vars k = .ok (vars.getD k "") := by
    intro k hk
    unfold varName
    rw [List.getElem?_eq_getElem hk, List.getD_eq_getElem _ _ hk]
  obtain ⟨ns, hns⟩ := mapM_total (f := varName vars)
    (l := (List.take 10 (E.argsortDesc ((attn.getD v []).map fun x => .fin |x|))).filter
      fun k => cutoff vars.length < |(attn.getD v []).getD k 0|) (by
    intro k hk
    have h1 := List.mem_of_mem_take (List.mem_filter.1 hk).1
    have h2 := (hE.argsort_perm _).mem_iff.1 h1
    rw [List.mem_range, List.length_map] at h2
    exact ⟨_, hn k (by omega)⟩)
  exact ⟨_, ebind_ok.2 ⟨_, hns, ebind_ok.2 ⟨_, hn v hv, rfl⟩⟩⟩

theorem ok_bind_eq {α β ε} (a : α) (f : α → Except ε β) : (Except.ok a >>= f) = f a := rfl

theorem detectWith_total {TS} {E : MEnv TS} (hE : E.WF) {d : Det} (hd : d.Good) {c : Config} {base : List ℚ × List ℚ} {N : Net}
    {pct : List ℚ} (hU : Usable d c base N pct) {th : ℚ} (hth : d.threshold = some th) {f : Frame} {t : Table}
    (hi : t.index.length = f.index.length) (ht : t.names.length = t.cols.length) (hcols : t.names.length = c.dataDim)
    (hrows : c.thresholdWindow + c.inputSize ≤ f.index.length) : ∃ items, detectWith E d f t = .ok items := by
  have hcg := hd.config _ hU.loaded.config
  have hmg := hd.model _ hU.loaded.model
  have hlow := hU.low
  have hhigh := hU.high
  have hin : 0 < c.inputSize := lt_of_lt_of_le hcg.kernel hU.kernel
  have htw := hcg.tw hin
  have hrl : t.rows.length = f.index.length := by rw [rows_length, hi]
  have hrw : ∀ r ∈ t.rows, r.length = c.dataDim := by
    intro r hr
    rw [rows_width t r hr, ← ht, hcols]
  obtain ⟨ss, hss⟩ := inferSamples_total (E := E.toNumEnv) (c := c) (base := base) (rows := t.rows)
    (fun r hr => by rw [hrw r hr, hlow])
  obtain ⟨hsl, hs⟩ := inferSamples_ok (show base.2.length = base.1.length by omega) hrw hss
  have hbc : bcLen c.dataDim base.2.length = c.dataDim := by rw [hlow]; unfold bcLen; simp
  have hfit : ∀ s ∈ ss, Fits c s.input := by
    intro s hsm
    obtain ⟨j, hj, rfl⟩ := List.mem_iff_getElem.1 hsm
    refine ⟨by rw [(hs j hj).len]; exact hU.kernel, fun r hr => ?_⟩
    rw [(hs j hj).width r hr]
    exact hbc
  have hraw : ∀ s ∈ ss, (rawRow E.toNumEnv c N s).length = c.dataDim := by
    intro s hsm
    obtain ⟨i, hi, rfl⟩ := List.mem_iff_getElem.1 hsm
    unfold rawRow
    rw [List.length_zipWith, pred_length hmg.2, (hs i hi).twidth]
    show min c.dataDim (bcLen c.dataDim base.2.length) = _
    rw [hbc, Nat.min_self]
  obtain ⟨wt, hwt⟩ := mapM_total (f := fun r => weightRow r pct) (l := ss.map (rawRow E.toNumEnv c N)) (by
    intro r hr
    obtain ⟨s, hsm, rfl⟩ := List.mem_map.1 hr
    obtain ⟨y, hy, -⟩ := hU.weigh _ (hraw s hsm)
    exact ⟨y, hy⟩)
  have hwl := mapM_ok_length hwt
  rw [List.length_map] at hwl
  have hwne : wt ≠ [] := by
    intro e
    rw [e] at hwl
    simp at hwl
    omega
  have hwlen : ∀ y ∈ wt, y.length = c.dataDim := by
    intro y hy
    obtain ⟨k, hk, rfl⟩ := List.mem_iff_getElem.1 hy
    have h0 := mapM_ok_get hwt (i := k) (by simp; omega)
    rw [List.getElem_map] at h0
    obtain ⟨y, hy, hyl⟩ := hU.weigh _ (hraw ss[k] (List.getElem_mem _))
    rw [hy] at h0
    cases h0
    exact hyl
  have hinf : inference E d t.rows = .ok (collected ⟨none, none, none⟩ wt
      (ss.map fun s => (sampleOut E.toNumEnv c N s.input).attn)) := by
    unfold inference
    rw [hU.loaded.config]
    dsimp only
    rw [hU.loaded.base]
    dsimp only
    rw [hU.loaded.model]
    dsimp only
    rw [hU.loaded.pct]
    dsimp only
    rw [lift_ok]
    rw [hss]
    exact (inferFold_ok hmg.1.dim hmg.1.gat hcg.batch ss _ _).2 ⟨hfit, wt, hwt, rfl⟩
  unfold detectWith
  dsimp only
  rw [hU.loaded.config]
  dsimp only
  rw [if_neg (by omega), hth]
  dsimp only
  rw [hinf]
  rw [ok_bind_eq]
  simp only [collected, if_neg hwne, appendResult]
  obtain ⟨ths, hths⟩ : ∃ ths, dynThresholds c.thresholdWindow (wt.map npMean) = .ok ths := by
    unfold dynThresholds
    apply mapM_total
    intro i hi'
    apply getThreshold_total
    obtain ⟨k, hk, rfl⟩ := List.mem_map.1 hi'
    rw [List.length_drop, List.length_take]
    have := hcg.tw_le
    omega
  rw [hths, lift_ok.2 rfl, ok_bind_eq]
  have hthl : ths.length = ss.length - (c.thresholdWindow - 1) := by
    have := mapM_ok_length hths
    simp only [List.length_map, List.length_range] at this
    omega
  set scores' := (wt.map npMean).drop (c.thresholdWindow - 1) with hsc
  have hscl : scores'.length = ss.length - (c.thresholdWindow - 1) := by rw [hsc]; simp; omega
  set anom := List.zipWith (decideAnomaly (min (3 / 10) th) (max (1 / 2) th)) scores' ths with hanom
  have hanl : anom.length = ss.length - (c.thresholdWindow - 1) := by rw [hanom, List.length_zipWith]; omega
  have hanl' : anom.length = ss.length + 1 - c.thresholdWindow := by omega
  set A : Nat → List (List ℚ) := fun j =>
    if hj : j < ss.length then (sampleOut E.toNumEnv c N ss[j].input).attn
    else (List.replicate c.dataDim (List.replicate c.dataDim 0)) with hA
  have hAs : (ss.map fun s => (sampleOut E.toNumEnv c N s.input).attn) = (List.range ss.length).map A := by
    apply List.ext_getElem
    · simp
    · intro j h1 h2
      have : j < ss.length := by simpa using h1
      simp [hA, this]
  have hAl : ∀ j, (A j).length = c.dataDim ∧ ∀ r ∈ A j, r.length = c.dataDim := by
    intro j
    simp only [hA]
    split
    · exact attn_length _
    · simp
  rw [hAs, hanl', attnChange_eq htw (by omega) hAl]
  set AT := (List.range (ss.length + 1 - c.thresholdWindow)).map fun k =>
    (List.range c.dataDim).map fun i => (List.range c.dataDim).map fun j =>
      ((A (c.thresholdWindow - 1 + k)).getD i []).getD j 0 -
        ((List.range c.thresholdWindow).map fun a => ((A (k + a)).getD i []).getD j 0).sum / c.thresholdWindow with hAT
  have hATl : ∀ k, k < ss.length + 1 - c.thresholdWindow → ∀ v, v < c.dataDim → ((AT.getD k []).getD v []).length = c.dataDim := by
    intro k hk v hv
    have e : AT.getD k [] = (List.range c.dataDim).map fun i => (List.range c.dataDim).map fun j =>
      ((A (c.thresholdWindow - 1 + k)).getD i []).getD j 0 -
        ((List.range c.thresholdWindow).map fun a => ((A (k + a)).getD i []).getD j 0).sum / c.thresholdWindow := by
      rw [hAT, List.getD_eq_getElem _ _ (by simpa using hk), List.getElem_map, List.getElem_range]
    rw [e, List.getD_eq_getElem _ _ (by simpa using hv), List.getElem_map, List.length_map, List.length_range]
  obtain ⟨items, hitems⟩ : ∃ items, packResponse E.toNumEnv f.index t.names anom scores'
      (List.zipWith (fun s a => if a = true then s else 0) (severityOf E.toNumEnv scores') anom)
      ((wt.map fun r => r.map fun x => npDiv x r.sum).drop (c.thresholdWindow - 1)) AT = .ok items := by
    unfold packResponse
    rw [if_neg (by omega)]
    apply mapM_total
    intro k hk
    rw [List.mem_range] at hk
    unfold packItem
    have hk' : k < ss.length + 1 - c.thresholdWindow := by omega
    obtain ⟨interp, hint⟩ := mapM_total (f := packVar E.toNumEnv t.names
        (((wt.map fun r => r.map fun x => npDiv x r.sum).drop (c.thresholdWindow - 1)).getD k []) (AT.getD k []))
      (l := E.argsortDesc (((wt.map fun r => r.map fun x => npDiv x r.sum).drop (c.thresholdWindow - 1)).getD k [])) (by
      intro v hv
      have hv' := (hE.num.argsort_perm _).mem_iff.1 hv
      rw [List.mem_range] at hv'
      have hlt : c.thresholdWindow - 1 + k < wt.length := by omega
      rw [List.getD_eq_getElem _ _ (by simp; omega), List.getElem_drop, List.getElem_map, List.length_map,
        hwlen _ (List.getElem_mem hlt)] at hv'
      apply packVar_total hE.num (by omega)
      rw [hATl k hk' v hv']
      omega)
    exact ⟨_, ebind_ok.2 ⟨_, hint, rfl⟩⟩
  exact ⟨items, lift_ok.2 hitems⟩

/-- **C74**. After a `fit` in which some epoch had a loss below infinity, a usable `predict` request returns results exactly when its table has
as many columns as the training table and at least `input_size + threshold_window` rows. -/
theorem C74_answers {TS} {E : MEnv TS} (hE : E.WF) {data : MData} {w w' : World} (hw : Reachable E w)
    (h : Multi.fit E data w = (w', .ok ())) :
    ∃ f t c train val ts vs, data = .frame f ∧ Prepared E w.params f t c train val ts vs ∧
      ((∃ j < c.epochs.toNat, (epochLoss E c ts vs j).lt .pinf = true) →
        ∀ p f2 t2 c2, Accepted E p f2 t2 c2 →
          ((∃ w2 items, Multi.predict E (.frame f2) { w' with params := p } = (w2, .ok items)) ↔
            t2.names.length = t.names.length ∧ c.inputSize + c.thresholdWindow ≤ f2.index.length)) := by
  have hg : w'.Good := by
    have := (Reachable.fit data hw).good hE
    rwa [h] at this
  obtain ⟨f, t, c, hd, ⟨R⟩⟩ := fit_ok h
  have hp := R.prepared hE
  refine ⟨f, t, c, R.train, R.val, R.ts, R.vs, hd, hp, fun hb p f2 t2 c2 ha => ?_⟩
  obtain ⟨base, N, hU, th, hth, -⟩ := usable_of_fit hE hg R ((C58_exists _ _).1 hb)
  obtain ⟨s, hs⟩ := processData_run (w := { w' with params := p }) ha
  obtain ⟨-, ⟨P, hP, htab⟩, -⟩ := ha
  obtain ⟨hi, ht⟩ := processed_sizes hE.table htab
  have hens : MM.Returns ensureModel { w' with params := p.after s t2.names.length } { w' with params := p.after s t2.names.length } () := by
    unfold MM.Returns ensureModel
    dsimp only
    rw [hU.loaded.model]
  have hrun : Multi.predict E (.frame f2) { w' with params := p } =
      ({ w' with params := p.after s t2.names.length }, detectWith E w'.det f2 t2) := by
    unfold Multi.predict
    rw [MM.run_bind hs]
    dsimp only
    rw [MM.run_bind hens, MM.run_bind (MM.get_ok.2 ⟨rfl, rfl⟩)]
    rfl
  rw [hrun]
  constructor
  · rintro ⟨w2, items, he⟩
    have hdet : detectWith E w'.det f2 t2 = .ok items := (Prod.mk.inj he).2
    obtain ⟨c', base', m, N', pct', th', hL, -, -, hA⟩ := detectWith_ok hE hg.det hi ht hdet
    have e1 : c' = c := by have := hL.config; rw [hU.loaded.config] at this; cases this; rfl
    have e2 : m = c := by have := hL.model; rw [hU.loaded.model] at this; cases this; rfl
    subst e1 e2
    have h1 : t2.names.length = m.dataDim := hA.names_len
    have h2 : m.thresholdWindow + m.inputSize ≤ t2.rows.length := hA.enough
    rw [rows_length] at h2
    have := hp.dim
    omega
  · rintro ⟨hcols, hrows⟩
    obtain ⟨items, hit⟩ := detectWith_total hE hg.det hU hth hi ht (by rw [hcols, hp.dim]) (by omega)
    exact ⟨_, items, by rw [hit]⟩

/-! ### windows shorter than the kernel -/

/-- **C76**. A `fit` with at least one epoch whose window (`input_size`, half of `sliding_window`) is shorter than `cnn_kernel_size` never returns
normally. -/
theorem C76_short_window {TS} {E : MEnv TS} (hE : E.WF) {f : Frame} {w : World} (hw : Reachable E w) {t : Table} {c : Config}
    (ha : Accepted E w.params f t c) (he : 0 < c.epochs) (hk : c.inputSize < c.kernel) (w' : World) :
    Multi.fit E (.frame f) w ≠ (w', .ok ()) := by
  intro h
  have hg : w'.Good := by
    have := (Reachable.fit (.frame f) hw).good hE
    rwa [h] at this
  obtain ⟨f', t', c', hd, ⟨R⟩⟩ := fit_ok h
  cases hd
  have hc0 : R.c0 = c := by
    obtain ⟨-, hf1, s1, hs1, hc1⟩ := R.accepted
    obtain ⟨-, hf2, s2, hs2, hc2⟩ := ha
    have e1 : t' = t := filled_unique hf1 hf2
    subst e1
    rw [hs1] at hs2
    cases hs2
    rw [hc1] at hc2
    cases hc2
    rfl
  have e1 : c'.epochs = c.epochs := by rw [← hc0, congrArg Config.epochs R.config]
  have e2 : c'.inputSize = c.inputSize := by rw [← hc0, congrArg Config.inputSize R.config]
  have e3 : c'.kernel = c.kernel := by rw [← hc0, congrArg Config.kernel R.config]
  have hcg : 0 < c'.batchSize := by
    have := (accepted_good R.accepted).1.batch
    rw [congrArg Config.batchSize R.config]
    exact this
  by_cases hvs : R.vs = []
  · have hbest : IsBest (epochLoss E c' R.ts R.vs) c'.epochs.toNat 0 := by
      rw [hvs]
      exact C63_no_validation E hcg R.ts _ (by omega)
    obtain ⟨base, N, hU, -⟩ := usable_of_fit hE hg R ⟨0, hbest⟩
    have := hU.kernel
    omega
  · have hrun := R.run
    obtain ⟨n, hn⟩ : ∃ n, c'.epochs.toNat = n + 1 := ⟨c'.epochs.toNat - 1, by omega⟩
    rw [hn] at hrun
    unfold epochs at hrun
    obtain ⟨w1, s1, h1, -⟩ := MM.bind_ok.1 hrun
    unfold epoch at h1
    split at h1
    · exact (MM.throw_ok.1 h1).elim
    · have : evalError c' R.vs = some .runtimeError := by
        unfold evalError
        rw [if_neg (by simpa using hvs), if_pos (by omega)]
      rw [this] at h1
      exact (MM.throw_ok.1 h1).elim

/-! ### concrete cases -/

/-- a window of six rows and a kernel of one hundred -/
def kernelParams : Params := fun k =>
  if k = "sliding_window" then some (.int 12) else if k = "cnn_kernel_size" then some (.int 100) else demoParams k

/-- A request with a window shorter than the kernel. -/
example : ∃ t c, Accepted (demoE loss0) kernelParams demoTrain t c ∧ 0 < c.epochs ∧ c.inputSize < c.kernel := by
  have hr : returned (processData (demoE loss0) (.frame demoTrain) { demoStart with params := kernelParams }).2
      (fun r => decide (0 < r.2.2.epochs ∧ r.2.2.inputSize < r.2.2.kernel)) = true := by decide +kernel
  obtain ⟨w', ⟨f', t, c⟩, h, ht⟩ := returned_ok (x := processData (demoE loss0) (.frame demoTrain)) hr
  exact ⟨t, c, accepted_of h, of_decide_eq_true ht⟩

/-- **C75** (defect: intended property refuted). A `fit` that raises does not leave the detector as it was: there is a trained detector and a table it
answers for such that, after a further `fit` that raises, the same request raises `ValueError`. -/
theorem C75_failed_fit : ∃ (E : MEnv Nat) (w : World) (f f2 : Frame) (p p2 : Params), E.WF ∧ Reachable E w ∧
    (∃ w1 items, Multi.predict E (.frame f2) { w with params := p2 } = (w1, .ok items)) ∧
    (Multi.fit E (.frame f) { w with params := p }).2 = .error (.err .runtimeError) ∧
    (Multi.predict E (.frame f2) { (Multi.fit E (.frame f) { w with params := p }).1 with params := p2 }).2 =
      .error (.err .valueError) := by
  refine ⟨demoE loss0, demoTrained, demoTrain, demoTest, kernelParams, demoParams, demoE_wf _, demoTrained_reachable, ?_, ?_, ?_⟩
  · obtain ⟨w1, items, h, -⟩ := returned_ok (x := Multi.predict (demoE loss0) (.frame demoTest))
      (w := { demoTrained with params := demoParams }) (test := fun _ => true) (by decide +kernel)
    exact ⟨w1, items, h⟩
  · exact raised_eq (by decide +kernel)
  · exact raised_eq (by decide +kernel)

/-- A first training with a best epoch, and a table the detector answers for. -/
example : ∃ w', Reachable (demoE loss2) demoEpochs ∧ Multi.fit (demoE loss2) (.frame demoTrain) demoEpochs = (w', .ok ()) ∧
    ∃ w2 items, Multi.predict (demoE loss2) (.frame demoTest) { w' with params := demoParams } = (w2, .ok items) := by
  obtain ⟨w', u, h, -⟩ := returned_ok (x := Multi.fit (demoE loss2) (.frame demoTrain)) (w := demoEpochs) (test := fun _ => true)
    (by decide +kernel)
  have h2 : returned (Multi.predict (demoE loss2) (.frame demoTest)
    { (Multi.fit (demoE loss2) (.frame demoTrain) demoEpochs).1 with params := demoParams }).2 (fun _ => true) = true := by
    decide +kernel
  rw [h] at h2
  obtain ⟨w2, items, h3, -⟩ := returned_ok h2
  exact ⟨w', Reachable.start _ _ (fun _ _ h => by cases h), h, w2, items, h3⟩

end Verif
