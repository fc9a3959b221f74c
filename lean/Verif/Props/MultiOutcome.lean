import Verif.Props.MultiTotal

/-!
# How a training ends (C121)
-/

namespace Verif

open Multi Spec

/-! ### the ends -/

namespace Spec

/-- what stops a training before the first epoch is over, given the numbers of training and validation samples: a shuffling loader that
refuses an empty dataset, a kernel longer than the window if any batch is formed, or batches of one sample -/
def endsEarly (emptyShuffle : Bool) (c : Config) (ts vs : Nat) : Option PyErr :=
  if ts = 0 ∧ emptyShuffle = true then some .valueError
  else if c.inputSize < c.kernel ∧ (c.batchSize ≤ ts ∨ 0 < vs) then some .runtimeError
  else if c.batchSize = 1 ∧ 0 < ts then some .valueError
  else none

/-- what stops a training after the epochs, given the number of training rows: no row has a full window before it, the kernel is longer
than the window, or the rank of the threshold is beyond the last score -/
def endsLate (c : Config) (rows : Nat) : Option PyErr :=
  if rows ≤ c.inputSize then some .valueError
  else if c.inputSize < c.kernel then some .runtimeError
  else if rows - c.inputSize ≤ ⌊dmul (rows - c.inputSize : Nat) c.level⌋₊ then some .indexError
  else none

end Spec

/-! ### the weights of an accepted table -/

theorem mapM_some_of {α β} {f : α → Option β} {l : List α} (h : ∀ a ∈ l, ∃ b, f a = some b) : ∃ r, l.mapM f = some r := by
  induction l with
  | nil => exact ⟨[], rfl⟩
  | cons a l ih =>
    obtain ⟨b, hb⟩ := h a (by simp)
    obtain ⟨r, hr⟩ := ih fun x hx => h x (by simp [hx])
    exact ⟨b :: r, by rw [List.mapM_cons, hb, hr]; rfl⟩

theorem mem_pick {α} {l : List α} {d : α} {o : List Nat} (ho : o.Perm (List.range l.length)) {a : α} (ha : a ∈ l) : a ∈ pick l d o := by
  obtain ⟨i, hi, rfl⟩ := List.mem_iff_getElem.1 ha
  refine List.mem_map.2 ⟨i, ho.mem_iff.2 (List.mem_range.2 hi), ?_⟩
  rw [List.getD_eq_getElem _ _ hi]

theorem pct_total {E : TableEnv} (hE : E.WF) {P : Processor} {w : Nat} {f : Frame} {t : Table} (hok : f.ok = true)
    (ht : P.process E (.frame f) = .ok t) (hcol : "timestamp" ∉ f.cols.map (·.name)) :
    ∃ l, pctWeight w f = .ok l ∧ l.length = t.names.length := by
  obtain ⟨g, hg, hconv, -, h2, -⟩ := process_ok ht
  have hf1 : (f.cols.filter fun c => decide (c.name ≠ "timestamp")) = f.cols := by
    rw [List.filter_eq_self]
    intro c hc
    simp only [decide_eq_true_eq]
    intro e
    exact hcol (List.mem_map.2 ⟨c, hc, e⟩)
  have hcells : ∀ c ∈ f.cols, Cell.bad ∉ c.cells := by
    intro c hc hbad
    have hmem : (⟨c.name, pick c.cells .nan (E.indexOrder f.index)⟩ : Column) ∈ g.cols := by
      rw [hg, sortedNames_eq]
      unfold selectCols sortIndex
      simp only [List.mem_flatMap, List.mem_filter, List.mem_map, decide_eq_true_eq]
      exact ⟨c.name, (sortedNames_perm f).mem_iff.2 (List.mem_map.2 ⟨c, hc, rfl⟩), ⟨c, hc, rfl⟩, rfl⟩
    unfold Frame.convertible at hconv
    rw [List.all_eq_true] at hconv
    obtain ⟨r, hr⟩ := Option.isSome_iff_exists.1 (hconv _ hmem)
    refine (astypeFloat_some hr).2 (mem_pick ?_ hbad)
    unfold Frame.ok at hok
    simp only [Bool.and_eq_true, List.all_eq_true, beq_iff_eq] at hok
    rw [hok.2 c hc]
    exact hE.order_perm _
  have hlen : (selectCols f (sortedNames f)).cols.length = t.names.length := by
    rw [h2, hg, sortedNames_eq, List.length_map, selected_length, selected_length]
    congr 1
    apply List.map_congr_left
    intro n _
    unfold sortIndex
    simp only [List.countP_map]
    rfl
  obtain ⟨cols, hcols⟩ := mapM_some_of (f := fun c : Column => astypeFloat c.cells) (l := (selectCols f (sortedNames f)).cols) (by
    intro c hc
    unfold selectCols at hc
    simp only [List.mem_flatMap, List.mem_filter] at hc
    obtain ⟨-, -, hc, -⟩ := hc
    exact ⟨_, astypeFloat_of (hcells c hc)⟩)
  have hcl := congrArg List.length (mapM_astype hcols)
  rw [List.length_map] at hcl
  have hpos := processed_dims hok ht
  unfold pctWeight
  dsimp only
  rw [hf1, show (⟨f.index, f.cols⟩ : Frame) = f from rfl, hcols]
  dsimp only
  rw [if_neg (by omega)]
  exact ⟨_, rfl, by rw [List.length_map, List.length_map, hcl, hlen]⟩

/-! ### the samples -/

theorem trainSamples_total {E : NumEnv} {c : Config} {base : List ℚ × List ℚ} {rows : List (List ℚ)} (hi : 0 < c.interval)
    (hh : 0 < c.horizon) (hr : ∀ r ∈ rows, r.length = base.2.length) : ∃ ss, (trainSet c base rows).samples E = .ok ss := by
  unfold Dataset.samples
  apply mapM_total
  intro x hx
  unfold Dataset.ends at hx
  obtain ⟨j, hj, rfl⟩ := List.mem_map.1 hx
  rw [List.mem_range] at hj
  have h1 : (j + 1) * c.interval ≤ rows.length + 1 - c.horizon - c.inputSize := (Nat.le_div_iff_mul_le hi).1 hj
  have h2 : (j + 1) * c.interval = j * c.interval + c.interval := by ring
  have hlt : c.inputSize + j * c.interval + c.horizon - 1 < rows.length := by omega
  unfold Dataset.get
  have h4 : pyIndex (trainSet c base rows).data (((c.inputSize + j * c.interval : Nat) : Int) - 1 + (trainSet c base rows).horizon) =
      .ok (rows[c.inputSize + j * c.interval + c.horizon - 1]) := by
    rw [← pyIndex_ok hlt]
    show pyIndex rows _ = _
    congr 1
    show ((c.inputSize + j * c.interval : Nat) : Int) - 1 + (c.horizon : Nat) = _
    omega
  obtain ⟨x, hx⟩ := mapM_total (f := normRow base.2 base.1 0 1) (l := (trainSet c base rows).windowRows (c.inputSize + j * c.interval))
    (fun r hrm => normRow_total (hr r (List.mem_of_mem_drop (List.mem_of_mem_take hrm))))
  obtain ⟨y, hy⟩ := normRow_total (mn := base.2) (mx := base.1) (lo := 0) (hi := 1) (hr _ (List.getElem_mem hlt))
  exact ⟨_, ebind_ok.2 ⟨_, h4, ebind_ok.2 ⟨_, hx, ebind_ok.2 ⟨_, hy, rfl⟩⟩⟩⟩

theorem windows_unique {E : NumEnv} {lo hi : ℚ} {dim : Nat} {mins maxs : List ℚ} {input step horizon : Nat} {rows : List (List ℚ)}
    {a b : List Sample} (ha : Windows E lo hi dim mins maxs input step horizon rows a)
    (hb : Windows E lo hi dim mins maxs input step horizon rows b) : a = b := by
  have hl : a.length = b.length := by rw [ha.count, hb.count]
  apply List.ext_getElem hl
  intro j h1 h2
  have e1 := (ha.window j h1).trans (hb.window j h2).symm
  have e2 := (ha.target j h1).trans (hb.target j h2).symm
  rcases ha' : a[j] with ⟨x, y⟩
  rcases hb' : b[j] with ⟨x', y'⟩
  rw [ha', hb'] at e1 e2
  dsimp only at e1 e2
  rw [e1, e2]

theorem list_ext_getD {a b : List ℚ} {n : Nat} (ha : a.length = n) (hb : b.length = n) (h : ∀ v < n, a.getD v 0 = b.getD v 0) : a = b := by
  apply List.ext_getElem (by omega)
  intro i h1 h2
  have := h i (by omega)
  rwa [List.getD_eq_getElem _ _ h1, List.getD_eq_getElem _ _ h2] at this

/-- the steps of a `fit` up to the epoch loop -/
structure Started {TS : Type} (E : MEnv TS) (f : Frame) (w w1 : World) (c : Config) (t : Table) (base : List ℚ × List ℚ) (pct : List ℚ) : Prop where
  det : w1.det = { w.det with config := some c, vars := some t.names, pct := some pct, modelPath := some (E.joinPath c.save) }
  disk : w1.disk = w.disk
  range : c.base = some base
  high : base.1.length = c.dataDim
  low : base.2.length = c.dataDim
  good : c.Good
  weights : pct.length = c.dataDim
  rows : ∀ r ∈ t.rows, r.length = c.dataDim

/-- what `fit` does after the samples are cut -/
def fitRest {TS} (E : MEnv TS) (c : Config) (ts vs : List Sample) (train : List (List ℚ)) : MM Unit :=
  if ts.isEmpty && E.emptyShuffle then MM.throw .valueError
  else do
    let _ ← epochs E c ts vs c.epochs.toNat (E.initState c, .pinf)
    loadCheckpoint (some (E.joinPath c.save))
    let w ← MM.get
    let r ← MM.of (computeThresholds E w.det train)
    MM.modifyDet fun d => { d with threshold := some r.1, scoreMax := some r.2.1, scoreMin := some r.2.2 }

theorem fit_start {TS} {E : MEnv TS} (hE : E.WF) {w : World} {f : Frame} {t : Table} {c : Config} {train val : List (List ℚ)}
    {ts vs : List Sample} (hp : Prepared E w.params f t c train val ts vs) (hcol : "timestamp" ∉ f.cols.map (·.name)) :
    ∃ w1 base pct, Started E f w w1 c t base pct ∧ Multi.fit E (.frame f) w = fitRest E c ts vs train w1 := by
  obtain ⟨hacc, hdim, htr, hva, hne, maxs, mins, hbase, hMl, hml, hrange, hW, hV⟩ := hp
  obtain ⟨hg0, -, -⟩ := accepted_good hacc
  have hg : c.Good := by
    refine ⟨hg0.dim, hg0.kernel, hg0.gat, hg0.batch, hg0.interval, hg0.horizon, hg0.tw, hg0.tw_le, hg0.train, hg0.val, hg0.level, ?_⟩
    intro b hb
    rw [hbase] at hb
    cases hb
    exact ⟨hMl, hml⟩
  obtain ⟨s, hs⟩ := processData_run hacc
  obtain ⟨hok, ⟨P, hP, htab⟩, -⟩ := hacc
  obtain ⟨pct, hpct, hpl⟩ := pct_total (w := c.thresholdWindow + c.inputSize) hE.table hok htab hcol
  have hrows : ∀ r ∈ t.rows, r.length = c.dataDim := by
    intro r hr
    rw [rows_width t r hr, hdim, (processed_sizes hE.table htab).2]
  have hrt : ∀ r ∈ train, r.length = c.dataDim := fun r hr => hrows r (List.mem_of_mem_take (htr ▸ hr))
  have hrv : ∀ r ∈ val, r.length = c.dataDim := fun r hr => by
    rw [hva] at hr
    exact hrows r (List.mem_of_mem_drop (List.mem_of_mem_take hr))
  have hsplit : split { c with base := none } t.rows = (train, val) := by
    unfold split
    dsimp only
    rw [intMul_toNat hg.train, intMul_toNat hg.val, ← htr, hva, List.drop_take, Nat.add_sub_cancel]
  have hlM := colFold_length npMax c.dataDim train
  have hlm := colFold_length npMin c.dataDim train
  have eM : colFold npMax c.dataDim train = maxs := list_ext_getD hlM hMl fun v hv => by
    rw [colFold_getD hv]
    exact (col_greatest hne v).unique (hrange v hv).1
  have em : colFold npMin c.dataDim train = mins := list_ext_getD hlm hml fun v hv => by
    rw [colFold_getD hv]
    exact (col_least hne v).unique (hrange v hv).2
  obtain ⟨ts', hts⟩ := trainSamples_total (E := E.toNumEnv) (c := c) (base := (maxs, mins)) (rows := train) hg.interval hg.horizon
    (fun r hr => by rw [hrt r hr]; exact hml.symm)
  obtain ⟨vs', hvs⟩ := inferSamples_total (E := E.toNumEnv) (c := c) (base := (maxs, mins)) (rows := val)
    (fun r hr => by rw [hrv r hr]; exact hml.symm)
  have e1 : ts' = ts := windows_unique
    (samples_windows (D := trainSet c (maxs, mins) train) hml hMl hrt hg.interval hg.horizon (by simp [trainSet]) hts) hW
  have e2 : vs' = vs := windows_unique
    (samples_windows (D := inferSet c (maxs, mins) val) hml hMl hrv (by simp [inferSet]) (by simp [inferSet]) (by norm_num [inferSet]) hvs) hV
  subst e1 e2
  have hc : ({ c with base := some (maxs, mins) } : Config) = c := by rw [← hbase]
  refine ⟨{ w with
    params := w.params.after s t.names.length
    det := { w.det with config := some c, vars := some t.names, pct := some pct, modelPath := some (E.joinPath c.save) } },
    (maxs, mins), pct, ⟨rfl, rfl, hbase, hMl, hml, hg, by omega, hrows⟩, ?_⟩
  unfold Multi.fit
  rw [MM.run_bind hs]
  dsimp only
  rw [MM.run_bind ((MM.modifyDet_ok (u := ())).2 rfl), MM.run_bind (MM.of_ok.2 ⟨rfl, hpct⟩), MM.run_bind ((MM.modifyDet_ok (u := ())).2 rfl), hsplit]
  dsimp only
  rw [if_neg (by simpa using hne), eM, em, hc, MM.run_bind ((MM.modifyDet_ok (u := ())).2 rfl), MM.run_bind (MM.of_ok.2 ⟨rfl, lift_ok.2 hts⟩),
    MM.run_bind (MM.of_ok.2 ⟨rfl, lift_ok.2 hvs⟩)]
  rfl

/-! ### the epoch loop -/

theorem epochs_throw {TS} {E : MEnv TS} {c : Config} {ts vs : List Sample} {n : Nat} (hn : 0 < n) (s : TS × PyFloat) (w : World) {e : PyErr}
    (h : trainError c ts = some e ∨ (trainError c ts = none ∧ evalError c vs = some e)) :
    epochs E c ts vs n s w = (w, .error (.err e)) := by
  obtain ⟨n, rfl⟩ : ∃ k, n = k + 1 := ⟨n - 1, by omega⟩
  have h1 : MM.Raises (epoch E c ts vs s) w w e := by
    unfold epoch
    rcases h with h | ⟨h, h'⟩
    · rw [h]; exact MM.throw_raises.2 ⟨rfl, rfl⟩
    · rw [h]
      dsimp only
      rw [h']
      exact MM.throw_raises.2 ⟨rfl, rfl⟩
  unfold epochs
  exact MM.bind_raises.2 (.inl h1)

theorem epochs_returns {TS} {E : MEnv TS} {c : Config} {ts vs : List Sample} (h1 : trainError c ts = none) (h2 : evalError c vs = none)
    (n : Nat) : ∀ (s : TS × PyFloat) (w : World), ∃ w' s', MM.Returns (epochs E c ts vs n s) w w' s' := by
  induction n with
  | zero => exact fun s w => ⟨w, s, rfl⟩
  | succ n ih =>
    intro s w
    obtain ⟨w1, s1, h⟩ : ∃ w' s', MM.Returns (epoch E c ts vs s) w w' s' := by
      unfold epoch
      rw [h1]
      dsimp only
      rw [h2]
      dsimp only
      split
      · exact ⟨_, _, rfl⟩
      · exact ⟨_, _, rfl⟩
    obtain ⟨w2, s2, h'⟩ := ih s1 w1
    exact ⟨w2, s2, MM.bind_ok.2 ⟨w1, s1, h, h'⟩⟩

theorem stateAfter_trains {TS} (E : MEnv TS) (c : Config) (ts : List Sample) (k : Nat) : E.Trains c (stateAfter E c ts k) := by
  induction k with
  | zero => exact .init
  | succ k ih => exact trainEpoch_trains ts ih

/-! ### the thresholds -/

theorem thresholds_end {TS} {E : MEnv TS} {d : Det} {c : Config} {base : List ℚ × List ℚ} {N : Net} {pct : List ℚ} (hL : Loaded d c base c N pct)
    (hg : c.Good) (hN : NetGood c (some N)) (hlow : base.2.length = c.dataDim) (hhigh : base.1.length = c.dataDim) (hpl : pct.length = c.dataDim)
    {rows : List (List ℚ)} (hrw : ∀ r ∈ rows, r.length = c.dataDim) :
    match endsLate c rows.length with
    | some e => computeThresholds E d rows = .error (.err e)
    | none => ∃ r, computeThresholds E d rows = .ok r := by
  obtain ⟨ss, hss⟩ := inferSamples_total (E := E.toNumEnv) (c := c) (base := base) (rows := rows)
    (fun r hr => by rw [hrw r hr, hlow])
  obtain ⟨hsl, hs⟩ := inferSamples_ok (show base.2.length = base.1.length by omega) hrw hss
  have hbc : bcLen c.dataDim base.2.length = c.dataDim := by rw [hlow]; unfold bcLen; simp
  have hinf : inference E d rows = lift ((chunk c.batchSize ss).foldlM (inferBatch E.toNumEnv c N pct) ⟨none, none, none⟩) := by
    unfold inference
    rw [hL.config]
    dsimp only
    rw [hL.base]
    dsimp only
    rw [hL.model]
    dsimp only
    rw [hL.pct]
    dsimp only
    rw [hss]
    rfl
  unfold endsLate
  by_cases h1 : rows.length ≤ c.inputSize
  · rw [if_pos h1]
    dsimp only
    have : ss = [] := List.eq_nil_of_length_eq_zero (by omega)
    unfold computeThresholds
    rw [hinf, this, chunk_nil hg.batch]
    rfl
  rw [if_neg h1]
  have hss0 : 0 < ss.length := by omega
  by_cases h2 : c.inputSize < c.kernel
  · rw [if_pos h2]
    dsimp only
    have hne : ss ≠ [] := List.length_pos_iff.1 hss0
    unfold computeThresholds
    have hb : inferBatch E.toNumEnv c N pct ⟨none, none, none⟩ (ss.take c.batchSize) = .error .runtimeError := by
      unfold inferBatch
      rw [forward_error]
      · rfl
      · intro hall
        have h0 : ss[0] ∈ ss.take c.batchSize := by
          have hb := hg.batch
          rw [List.mem_take_iff_getElem]
          exact ⟨0, by omega, rfl⟩
        have := (hall _ (List.mem_map.2 ⟨_, h0, rfl⟩)).1
        rw [(hs 0 hss0).len] at this
        have e : (inferSet c base rows).window = c.inputSize := rfl
        omega
    rw [hinf, chunk_cons hg.batch hne, List.foldlM_cons, hb]
    rfl
  rw [if_neg h2]
  have hfit : ∀ s ∈ ss, Fits c s.input := by
    intro s hsm
    obtain ⟨j, hj, rfl⟩ := List.mem_iff_getElem.1 hsm
    refine ⟨by rw [(hs j hj).len]; exact Nat.le_of_not_lt h2, fun r hr => ?_⟩
    rw [(hs j hj).width r hr]
    exact hbc
  have hraw : ∀ s ∈ ss, (rawRow E.toNumEnv c N s).length = c.dataDim := by
    intro s hsm
    obtain ⟨i, hi, rfl⟩ := List.mem_iff_getElem.1 hsm
    unfold rawRow
    rw [List.length_zipWith, pred_length hN, (hs i hi).twidth]
    show min c.dataDim (bcLen c.dataDim base.2.length) = _
    rw [hbc, Nat.min_self]
  obtain ⟨wt, hwt⟩ := mapM_total (f := fun r => weightRow r pct) (l := ss.map (rawRow E.toNumEnv c N)) (by
    intro r hr
    obtain ⟨s, hsm, rfl⟩ := List.mem_map.1 hr
    unfold weightRow
    rw [if_pos (by rw [hraw s hsm, hpl])]
    exact ⟨_, rfl⟩)
  have hwl := mapM_ok_length hwt
  rw [List.length_map] at hwl
  have hwne : wt ≠ [] := List.length_pos_iff.1 (by omega)
  have hfold := (inferFold_ok hg.dim hg.gat hg.batch ss ⟨none, none, none⟩ _).2 ⟨hfit, wt, hwt, rfl⟩
  have hct : computeThresholds E d rows =
      (lift (pyIndex (sortQ (wt.map npMean)) (intMul (wt.map npMean).length c.level)) >>= fun th =>
        pure (th, npMax (wt.map npMean), npMin (wt.map npMean))) := by
    unfold computeThresholds
    rw [hinf, hfold, lift_ok.2 rfl, ok_bind_eq]
    simp only [collected, if_neg hwne, appendResult, hL.config]
  have hlen : (wt.map npMean).length = rows.length - c.inputSize := by rw [List.length_map]; omega
  have hnn : 0 ≤ dmul (rows.length - c.inputSize : Nat) c.level := dmul_nonneg hg.level
  have hi : intMul (rows.length - c.inputSize) c.level = ((⌊dmul (rows.length - c.inputSize : Nat) c.level⌋₊ : Nat) : Int) := by
    rw [← intMul_toNat hg.level, Int.toNat_of_nonneg]
    unfold intMul pyInt
    rw [if_pos hnn]
    exact Int.floor_nonneg.2 hnn
  have hsort : (sortQ (wt.map npMean)).length = rows.length - c.inputSize := by rw [← hlen]; exact (sortQ_perm _).length_eq
  rw [hct, hlen, hi]
  by_cases h3 : rows.length - c.inputSize ≤ ⌊dmul (rows.length - c.inputSize : Nat) c.level⌋₊
  · rw [if_pos h3]
    dsimp only
    unfold pyIndex
    simp only [show ¬ ((⌊dmul (rows.length - c.inputSize : Nat) c.level⌋₊ : Int) < 0) by omega, if_false, Int.toNat_natCast]
    rw [List.getElem?_eq_none (by omega)]
    rfl
  · rw [if_neg h3]
    dsimp only
    rw [pyIndex_ok (by omega), lift_ok.2 rfl, ok_bind_eq]
    exact ⟨_, rfl⟩

/-! ### the end of a training -/

theorem errors_of {c : Config} (hg : c.Good) {emptyShuffle : Bool} {ts vs : List Sample} {e : PyErr}
    (hs : ¬ (ts = [] ∧ emptyShuffle = true)) (h : endsEarly emptyShuffle c ts.length vs.length = some e) :
    trainError c ts = some e ∨ (trainError c ts = none ∧ evalError c vs = some e) := by
  have hb := hg.batch
  unfold endsEarly at h
  rw [if_neg (by rw [List.length_eq_zero_iff]; exact hs)] at h
  unfold trainError evalError
  by_cases h1 : ts.length < c.batchSize
  · rw [if_pos h1]
    by_cases h2 : c.inputSize < c.kernel ∧ (c.batchSize ≤ ts.length ∨ 0 < vs.length)
    · rw [if_pos h2] at h
      rw [if_neg (by omega), if_pos h2.1]
      exact .inr ⟨rfl, h⟩
    · rw [if_neg h2, if_neg (by omega)] at h
      cases h
  · rw [if_neg h1]
    by_cases h2 : c.inputSize < c.kernel
    · rw [if_pos ⟨h2, by omega⟩] at h
      rw [if_pos h2]
      exact .inl h
    · rw [if_neg (fun hh => h2 hh.1)] at h
      rw [if_neg h2]
      by_cases h3 : c.batchSize = 1
      · rw [if_pos ⟨h3, by omega⟩] at h
        rw [if_pos h3]
        exact .inl h
      · rw [if_neg (fun hh => h3 hh.1)] at h
        cases h

theorem no_errors_of {c : Config} (hg : c.Good) {emptyShuffle : Bool} {ts vs : List Sample}
    (h : endsEarly emptyShuffle c ts.length vs.length = none) :
    ¬ (ts = [] ∧ emptyShuffle = true) ∧ trainError c ts = none ∧ evalError c vs = none := by
  have hb := hg.batch
  unfold endsEarly at h
  split at h
  · cases h
  · rename_i hs
    split at h
    · cases h
    · rename_i h1
      split at h
      · cases h
      · rename_i h2
        refine ⟨by rwa [List.length_eq_zero_iff] at hs, ?_, ?_⟩
        · unfold trainError
          by_cases h3 : ts.length < c.batchSize
          · rw [if_pos h3]
          · rw [if_neg h3, if_neg (fun hh => h1 ⟨hh, .inl (by omega)⟩), if_neg (fun hh => h2 ⟨hh, by omega⟩)]
        · unfold evalError
          by_cases h3 : vs.length = 0
          · rw [if_pos h3]
          · rw [if_neg h3, if_neg (fun hh => h1 ⟨hh, .inr (by omega)⟩)]

/-- **C121** Every accepted table of which at least one row is for training has well defined training and validation rows, range and samples. -/
theorem C121_prepared {TS} {E : MEnv TS} (hE : E.WF) {p : Params} {f : Frame} {t : Table} {c : Config} (ha : Accepted E p f t c)
    (hn : 0 < t.rows.length) (hr : 0 < ⌊dmul t.rows.length c.trainRatio⌋₊) :
    ∃ base train val ts vs, Prepared E p f t { c with base := some base } train val ts vs := by
  obtain ⟨hg, hdim, hb0⟩ := accepted_good ha
  obtain ⟨train, htr⟩ : ∃ x, x = t.rows.take ⌊dmul t.rows.length c.trainRatio⌋₊ := ⟨_, rfl⟩
  obtain ⟨val, hva⟩ : ∃ x, x = (t.rows.drop ⌊dmul t.rows.length c.trainRatio⌋₊).take ⌊dmul t.rows.length c.valRatio⌋₊ := ⟨_, rfl⟩
  have hrows : ∀ r ∈ t.rows, r.length = c.dataDim := by
    intro r hr
    obtain ⟨P, -, ht⟩ := ha.filled
    rw [rows_width t r hr, hdim, (processed_sizes hE.table ht).2]
  have hrt : ∀ r ∈ train, r.length = c.dataDim := fun r hr => hrows r (List.mem_of_mem_take (htr ▸ hr))
  have hrv : ∀ r ∈ val, r.length = c.dataDim := fun r hr => by
    rw [hva] at hr
    exact hrows r (List.mem_of_mem_drop (List.mem_of_mem_take hr))
  have hne : train ≠ [] := List.length_pos_iff.1 (by rw [htr, List.length_take]; omega)
  have hlM := colFold_length npMax c.dataDim train
  have hlm := colFold_length npMin c.dataDim train
  set base := (colFold npMax c.dataDim train, colFold npMin c.dataDim train) with hbase
  obtain ⟨ts, hts⟩ := trainSamples_total (E := E.toNumEnv) (c := c) (base := base) (rows := train) hg.interval hg.horizon
    (fun r hr => by rw [hrt r hr]; exact hlm.symm)
  obtain ⟨vs, hvs⟩ := inferSamples_total (E := E.toNumEnv) (c := c) (base := base) (rows := val)
    (fun r hr => by rw [hrv r hr]; exact hlm.symm)
  refine ⟨base, train, val, ts, vs, ?_, hdim, htr, hva, hne, _, _, rfl, hlM, hlm, ?_, ?_, ?_⟩
  · rw [show c = { c with base := none } from by rw [← hb0]] at ha
    exact ha
  · intro v hv
    dsimp only at hv
    rw [colFold_getD hv, colFold_getD hv]
    exact ⟨col_greatest hne v, col_least hne v⟩
  · exact samples_windows (D := trainSet c base train) hlm hlM hrt hg.interval hg.horizon (by simp [trainSet]) hts
  · exact samples_windows (D := inferSet c base val) hlm hlM hrv (by simp [inferSet]) (by simp [inferSet]) (by norm_num [inferSet]) hvs

/-- **C121** An accepted table of which no row is for training raises `ValueError`; nothing is written. -/
theorem C121_no_rows {TS} {E : MEnv TS} (hE : E.WF) {w : World} {f : Frame} {t : Table} {c : Config} (ha : Accepted E w.params f t c)
    (hcol : "timestamp" ∉ f.cols.map (·.name)) (hr : ⌊dmul t.rows.length c.trainRatio⌋₊ = 0) :
    ∃ w', Multi.fit E (.frame f) w = (w', .error (.err .valueError)) ∧ w'.disk = w.disk ∧ w'.det.model = w.det.model := by
  obtain ⟨hg, hdim, hb0⟩ := accepted_good ha
  obtain ⟨s, hs⟩ := processData_run ha
  obtain ⟨hok, ⟨P, hP, htab⟩, -⟩ := ha
  obtain ⟨pct, hpct, -⟩ := pct_total (w := c.thresholdWindow + c.inputSize) hE.table hok htab hcol
  unfold Multi.fit
  rw [MM.run_bind hs]
  dsimp only
  rw [MM.run_bind ((MM.modifyDet_ok (u := ())).2 rfl), MM.run_bind (MM.of_ok.2 ⟨rfl, hpct⟩), MM.run_bind ((MM.modifyDet_ok (u := ())).2 rfl)]
  unfold split
  dsimp only
  rw [intMul_toNat hg.train, hr]
  exact ⟨_, rfl, rfl, rfl⟩

/-- **C121** A training whose sample counts, window, kernel and batch size are in the list `endsEarly` raises the exception listed there; nothing is
written and the detector keeps its network. -/
theorem C121_early {TS} {E : MEnv TS} (hE : E.WF) {w : World} {f : Frame} {t : Table} {c : Config} {train val : List (List ℚ)}
    {ts vs : List Sample} (hp : Prepared E w.params f t c train val ts vs) (hcol : "timestamp" ∉ f.cols.map (·.name)) (he : 0 < c.epochs)
    {e : PyErr} (h : endsEarly E.emptyShuffle c ts.length vs.length = some e) :
    ∃ w', Multi.fit E (.frame f) w = (w', .error (.err e)) ∧ w'.disk = w.disk ∧ w'.det.model = w.det.model := by
  obtain ⟨w1, base, pct, hS, hfit⟩ := fit_start hE hp hcol
  rw [hfit]
  refine ⟨w1, ?_, hS.disk, by rw [hS.det]⟩
  unfold fitRest
  by_cases hs : ts = [] ∧ E.emptyShuffle = true
  · rw [if_pos (by simp [hs.1, hs.2])]
    unfold endsEarly at h
    rw [if_pos ⟨by simp [hs.1], hs.2⟩] at h
    cases h
    rfl
  · rw [if_neg (by simpa using hs)]
    exact MM.bind_raises.2 (.inl (epochs_throw (by omega) _ _ (errors_of hS.good hs h)))

/-- **C121** A training that does not end early and in which some epoch had a loss below infinity, the network of the best one being finite, ends as
`endsLate` says. If it raises, the new network is written and in the detector, and the threshold in the detector is that of before the call. -/
theorem C121_late {TS} {E : MEnv TS} (hE : E.WF) {w : World} {f : Frame} {t : Table} {c : Config} {train val : List (List ℚ)}
    {ts vs : List Sample} (hp : Prepared E w.params f t c train val ts vs) (hcol : "timestamp" ∉ f.cols.map (·.name))
    (h : endsEarly E.emptyShuffle c ts.length vs.length = none) {i : Nat} {N : Net}
    (hi : IsBest (epochLoss E c ts vs) c.epochs.toNat i) (hN : netAfter E c ts (i + 1) = some N) :
    ∃ w', w'.det.model = some ⟨c, some N⟩ ∧ (∃ k, w'.disk (E.joinPath c.save) = .ckpt k ∧ k.net = some N) ∧
      match endsLate c train.length with
      | none => Multi.fit E (.frame f) w = (w', .ok ())
      | some e => Multi.fit E (.frame f) w = (w', .error (.err e)) ∧ w'.det.threshold = w.det.threshold := by
  obtain ⟨w1, base, pct, hS, hfit⟩ := fit_start hE hp hcol
  obtain ⟨hs, h1, h2⟩ := no_errors_of hS.good h
  obtain ⟨w2, last, hrun⟩ := epochs_returns (E := E) h1 h2 c.epochs.toNat (E.initState c, .pinf) w1
  have h0 : LoopInv E c ts vs w1 w1 0 .pinf := ⟨⟨w1.det.model, rfl⟩, rfl, .inl ⟨rfl, by simp, rfl⟩⟩
  have hloop := epochs_inv c.epochs.toNat h0 hrun
  rw [Nat.zero_add] at hloop
  obtain ⟨⟨m, hdet2⟩, -, hdisk2⟩ := hloop
  rcases hdisk2 with ⟨-, hall, -⟩ | ⟨i', hi', -, hd⟩
  · have := hall i hi.lt
    rw [hi.below] at this
    cases this
  obtain rfl := C58_unique hi hi'
  rw [hN, hS.det] at hd
  rw [hS.det] at hdet2
  dsimp only at hd hdet2
  have hdisk : w2.disk (E.joinPath c.save) = .ckpt ⟨some N, c, some pct, w.det.threshold, w.det.scoreMax, w.det.scoreMin⟩ := by
    rw [hd]; simp
  obtain ⟨w3, hw3⟩ : ∃ x : World, x = { w2 with det := { w2.det with
      config := some c, model := some ⟨c, some N⟩, pct := some pct, threshold := w.det.threshold, scoreMax := w.det.scoreMax,
      scoreMin := w.det.scoreMin } } := ⟨_, rfl⟩
  have hload : MM.Returns (loadCheckpoint (some (E.joinPath c.save))) w2 w3 () := by
    unfold loadCheckpoint
    refine MM.bind_ok.2 ⟨w2, w2, MM.get_ok.2 ⟨rfl, rfl⟩, ?_⟩
    dsimp only
    rw [hdisk]
    exact MM.modifyDet_ok.2 hw3.symm
  have hrest : Multi.fit E (.frame f) w = (MM.of (computeThresholds E w3.det train) >>= fun r =>
      MM.modifyDet fun d => { d with threshold := some r.1, scoreMax := some r.2.1, scoreMin := some r.2.2 }) w3 := by
    rw [hfit]
    unfold fitRest
    rw [if_neg (by simpa using hs), MM.run_bind hrun, MM.run_bind hload, MM.run_bind (MM.get_ok.2 ⟨rfl, rfl⟩)]
  have hL : Loaded w3.det c base c N pct := by subst hw3; exact ⟨rfl, hS.range, rfl, rfl⟩
  have hNG : NetGood c (some N) := by
    rintro N' ⟨⟩
    exact hE.weights_shape c _ N (stateAfter_trains E c ts (i + 1)) hN
  have hrt : ∀ r ∈ train, r.length = c.dataDim := fun r hr => hS.rows r (List.mem_of_mem_take (hp.train_eq ▸ hr))
  have hth := thresholds_end (E := E) hL hS.good hNG hS.low hS.high hS.weights hrt
  cases hend : endsLate c train.length with
  | none =>
    rw [hend] at hth
    obtain ⟨r, hr⟩ := hth
    rw [hrest, MM.run_bind (MM.of_ok.2 ⟨rfl, hr⟩)]
    refine ⟨_, ?_, ?_, rfl⟩
    · subst hw3; rfl
    · subst hw3; exact ⟨_, hdisk, rfl⟩
  | some e =>
    rw [hend] at hth
    dsimp only at hth ⊢
    refine ⟨w3, by subst hw3; rfl, by subst hw3; exact ⟨_, hdisk, rfl⟩, ?_, by subst hw3; rfl⟩
    rw [hrest]
    exact MM.bind_raises.2 (.inl (MM.of_raises.2 ⟨rfl, hth⟩))

/-- **C121** A training that does not end early and in which no epoch had a loss below infinity (for instance without epochs) raises `FileNotFoundError`
if there is no checkpoint at its place, and writes none. -/
theorem C121_no_best {TS} {E : MEnv TS} (hE : E.WF) {w : World} {f : Frame} {t : Table} {c : Config} {train val : List (List ℚ)}
    {ts vs : List Sample} (hp : Prepared E w.params f t c train val ts vs) (hcol : "timestamp" ∉ f.cols.map (·.name))
    (h : endsEarly E.emptyShuffle c ts.length vs.length = none)
    (hall : ∀ j < c.epochs.toNat, (epochLoss E c ts vs j).lt .pinf = false) (hfile : w.disk (E.joinPath c.save) = .missing) :
    ∃ w', Multi.fit E (.frame f) w = (w', .error (.err .fileNotFound)) ∧ w'.disk = w.disk ∧ w'.det.model = w.det.model := by
  obtain ⟨w1, base, pct, hS, hfit⟩ := fit_start hE hp hcol
  obtain ⟨hs, h1, h2⟩ := no_errors_of hS.good h
  obtain ⟨w2, last, hrun⟩ := epochs_returns (E := E) h1 h2 c.epochs.toNat (E.initState c, .pinf) w1
  have h0 : LoopInv E c ts vs w1 w1 0 .pinf := ⟨⟨w1.det.model, rfl⟩, rfl, .inl ⟨rfl, by simp, rfl⟩⟩
  have hloop := epochs_inv c.epochs.toNat h0 hrun
  rw [Nat.zero_add] at hloop
  rcases hloop.disk with ⟨-, -, e⟩ | ⟨i, hi, -⟩
  swap
  · have := hall i hi.lt
    rw [hi.below] at this
    cases this
  subst e
  rw [hfit]
  refine ⟨w2, ?_, hS.disk, by rw [hS.det]⟩
  unfold fitRest
  rw [if_neg (by simpa using hs), MM.run_bind hrun]
  refine MM.bind_raises.2 (.inl ?_)
  unfold loadCheckpoint
  refine MM.bind_raises.2 (.inr ⟨w2, w2, MM.get_ok.2 ⟨rfl, rfl⟩, ?_⟩)
  dsimp only
  rw [hS.disk, hfile]
  exact MM.throw_raises.2 ⟨rfl, rfl⟩

/-! ### concrete cases -/

/-- the numbers of training rows, training samples and validation samples -/
theorem prepared_counts {TS} {E : MEnv TS} {p : Params} {f : Frame} {t : Table} {c : Config} {train val : List (List ℚ)}
    {ts vs : List Sample} (hp : Prepared E p f t c train val ts vs) :
    train.length = (t.rows.take ⌊dmul t.rows.length c.trainRatio⌋₊).length ∧
    ts.length = ((t.rows.take ⌊dmul t.rows.length c.trainRatio⌋₊).length + 1 - c.horizon - c.inputSize) / c.interval ∧
    vs.length = ((t.rows.drop ⌊dmul t.rows.length c.trainRatio⌋₊).take ⌊dmul t.rows.length c.valRatio⌋₊).length - c.inputSize := by
  obtain ⟨-, -, htr, hva, -, maxs, mins, -, -, -, -, hW, hV⟩ := hp
  refine ⟨by rw [htr], by rw [← htr]; exact hW.count, ?_⟩
  rw [← hva, hV.count]
  simp

/-- the ends of a training, computed from the processed table -/
def endsOf (shuffle : Bool) (t : Table) (c : Config) : Option PyErr × Option PyErr :=
  let train := (t.rows.take ⌊dmul t.rows.length c.trainRatio⌋₊).length
  let val := ((t.rows.drop ⌊dmul t.rows.length c.trainRatio⌋₊).take ⌊dmul t.rows.length c.valRatio⌋₊).length
  (endsEarly shuffle c ((train + 1 - c.horizon - c.inputSize) / c.interval) (val - c.inputSize), endsLate c train)

theorem ends_example {E : MEnv Nat} (hE : E.WF) {w : World} {f : Frame} {r : Option PyErr × Option PyErr} {n : Int}
    (h : returned (processData E (.frame f) w).2 (fun x => decide (endsOf E.emptyShuffle x.2.1 x.2.2 = r ∧ x.2.2.epochs = n ∧
      0 < x.2.1.rows.length ∧ 0 < ⌊dmul x.2.1.rows.length x.2.2.trainRatio⌋₊)) = true) :
    ∃ t c train val ts vs, Prepared E w.params f t c train val ts vs ∧ c.epochs = n ∧
      endsEarly E.emptyShuffle c ts.length vs.length = r.1 ∧ endsLate c train.length = r.2 := by
  obtain ⟨w', ⟨f', t, c⟩, h, ht⟩ := returned_ok (x := processData E (.frame f)) h
  obtain ⟨h1, h2, h3, h4⟩ := of_decide_eq_true ht
  obtain ⟨base, train, val, ts, vs, hp⟩ := C121_prepared hE (accepted_of h) h3 h4
  obtain ⟨e1, e2, e3⟩ := prepared_counts hp
  refine ⟨t, _, train, val, ts, vs, hp, h2, ?_, ?_⟩
  · rw [e2, e3, ← h1]; rfl
  · rw [e1, ← h1]; rfl

/-- the demonstration dict with one entry changed -/
def demoWith (key : String) (v : PyVal) : World := { demoStart with params := fun k => if k = key then some v else demoParams k }

/-- Batches of one sample: the training of ten rows ends with `ValueError`. -/
example : ∃ t c train val ts vs, Prepared (demoE loss0) (demoWith "batch_size" (.int 1)).params demoTrain t c train val ts vs ∧ c.epochs = 1 ∧
    endsEarly (demoE loss0).emptyShuffle c ts.length vs.length = some .valueError ∧ endsLate c train.length = none :=
  ends_example (w := demoWith "batch_size" (.int 1)) (r := (some .valueError, none)) (demoE_wf _) (by decide +kernel)

/-- A kernel longer than the window: `RuntimeError`. -/
example : ∃ t c train val ts vs, Prepared (demoE loss0) (demoWith "cnn_kernel_size" (.int 9)).params demoTrain t c train val ts vs ∧ c.epochs = 1 ∧
    endsEarly (demoE loss0).emptyShuffle c ts.length vs.length = some .runtimeError ∧ endsLate c train.length = some .runtimeError :=
  ends_example (w := demoWith "cnn_kernel_size" (.int 9)) (r := (some .runtimeError, some .runtimeError)) (demoE_wf _) (by decide +kernel)

/-- `level=1.0`: the training is done and then raises `IndexError`. -/
example : ∃ t c train val ts vs, Prepared (demoE loss0) (demoWith "level" (.float (.fin 1))).params demoTrain t c train val ts vs ∧ c.epochs = 1 ∧
    endsEarly (demoE loss0).emptyShuffle c ts.length vs.length = none ∧ endsLate c train.length = some .indexError :=
  ends_example (w := demoWith "level" (.float (.fin 1))) (r := (none, some .indexError)) (demoE_wf _) (by decide +kernel)

/-- the demonstration environment with a loader that accepts an empty dataset -/
def laxE : MEnv Nat := { demoE loss0 with emptyShuffle := false }

theorem laxE_wf : laxE.WF := ⟨(demoE_wf loss0).table, (demoE_wf loss0).num, by
  intro c ts N _ h
  cases h
  simp [constNet], fun _ _ => List.Perm.refl _, fun _ _ _ => rfl⟩

/-- A window longer than the training rows: `ValueError` from a loader that refuses empty datasets. -/
example : ∃ t c train val ts vs, Prepared (demoE loss0) (demoWith "sliding_window" (.int 40)).params demoTrain t c train val ts vs ∧ c.epochs = 1 ∧
    endsEarly (demoE loss0).emptyShuffle c ts.length vs.length = some .valueError ∧ endsLate c train.length = some .valueError :=
  ends_example (w := demoWith "sliding_window" (.int 40)) (r := (some .valueError, some .valueError)) (demoE_wf _) (by decide +kernel)

/-- With a loader that accepts them it is a `ValueError` after the epochs. -/
example : ∃ t c train val ts vs, Prepared laxE (demoWith "sliding_window" (.int 40)).params demoTrain t c train val ts vs ∧ c.epochs = 1 ∧
    endsEarly laxE.emptyShuffle c ts.length vs.length = none ∧ endsLate c train.length = some .valueError :=
  ends_example (w := demoWith "sliding_window" (.int 40)) (r := (none, some .valueError)) laxE_wf (by decide +kernel)

/-- No epochs: `FileNotFoundError`. -/
example : ∃ t c train val ts vs, Prepared (demoE loss0) (demoWith "epochs" (.int 0)).params demoTrain t c train val ts vs ∧ c.epochs = 0 ∧
    endsEarly (demoE loss0).emptyShuffle c ts.length vs.length = none ∧ endsLate c train.length = none :=
  ends_example (w := demoWith "epochs" (.int 0)) (r := (none, none)) (demoE_wf _) (by decide +kernel)

/-- A ratio that leaves no row for training. -/
example : ∃ t c, Accepted (demoE loss0) (demoWith "train_ratio" (.float (.fin (1 / 20)))).params demoTrain t c ∧
    ⌊dmul t.rows.length c.trainRatio⌋₊ = 0 := by
  have hr : returned (processData (demoE loss0) (.frame demoTrain) (demoWith "train_ratio" (.float (.fin (1 / 20))))).2
      (fun r => decide (⌊dmul r.2.1.rows.length r.2.2.trainRatio⌋₊ = 0)) = true := by decide +kernel
  obtain ⟨w', ⟨f', t, c⟩, h, ht⟩ := returned_ok (x := processData (demoE loss0) (.frame demoTrain)) hr
  exact ⟨t, c, accepted_of h, of_decide_eq_true ht⟩

/-- The demonstration training itself returns: some epoch is the best and its network is finite. -/
example : ∃ t c train val ts vs, Prepared (demoE loss0) demoParams demoTrain t c train val ts vs ∧ c.epochs = 1 ∧
    endsEarly (demoE loss0).emptyShuffle c ts.length vs.length = none ∧ endsLate c train.length = none ∧
    ∃ i N, IsBest (epochLoss (demoE loss0) c ts vs) c.epochs.toNat i ∧ netAfter (demoE loss0) c ts (i + 1) = some N := by
  have h : returned (processData (demoE loss0) (.frame demoTrain) demoStart).2 (fun x => decide (endsOf true x.2.1 x.2.2 = (none, none) ∧
      x.2.2.epochs = 1 ∧ 0 < x.2.1.rows.length ∧ 0 < ⌊dmul x.2.1.rows.length x.2.2.trainRatio⌋₊ ∧
      ((x.2.1.rows.drop ⌊dmul x.2.1.rows.length x.2.2.trainRatio⌋₊).take ⌊dmul x.2.1.rows.length x.2.2.valRatio⌋₊).length - x.2.2.inputSize = 0)) =
      true := by decide +kernel
  obtain ⟨w', ⟨f', t, c⟩, h, ht⟩ := returned_ok (x := processData (demoE loss0) (.frame demoTrain)) h
  obtain ⟨h1, h2, h3, h4, h5⟩ := of_decide_eq_true ht
  obtain ⟨base, train, val, ts, vs, hp⟩ := C121_prepared (demoE_wf loss0) (accepted_of h) h3 h4
  obtain ⟨e1, e2, e3⟩ := prepared_counts hp
  have hb := (accepted_good hp.accepted).1.batch
  have hvs : vs = [] := List.eq_nil_of_length_eq_zero (e3.trans h5)
  refine ⟨t, _, train, val, ts, vs, hp, h2, ?_, ?_, 0, _, ?_, rfl⟩
  · rw [e2, e3]; exact congrArg Prod.fst h1
  · rw [e1]; exact congrArg Prod.snd h1
  · rw [hvs]
    refine C63_no_validation (demoE loss0) hb ts _ ?_
    show 0 < c.epochs.toNat
    rw [show c.epochs = 1 from h2]
    decide

end Verif
