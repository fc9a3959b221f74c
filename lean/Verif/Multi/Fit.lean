import Verif.Uni.Double
import Verif.Multi.Run

/-!
# A training run
-/

namespace Verif.Multi

open Spec

/-- the steps of a `fit` that returns -/
structure FitRun {TS : Type} (E : MEnv TS) (w w' : World) (f : Frame) (t : Table) (c : Config) where
  c0 : Config
  pct : List ℚ
  train : List (List ℚ)
  val : List (List ℚ)
  ts : List Sample
  vs : List Sample
  w1 : World
  w2 : World
  w3 : World
  last : TS × PyFloat
  th : ℚ × ℚ × ℚ
  accepted : Accepted E w.params f t c0
  pct_eq : pctWeight (c0.thresholdWindow + c0.inputSize) f = .ok pct
  split_eq : split c0 t.rows = (train, val)
  train_ne : train ≠ []
  config : c = { c0 with base := some (colFold npMax c0.dataDim train, colFold npMin c0.dataDim train) }
  ts_eq : (trainSet c (colFold npMax c0.dataDim train, colFold npMin c0.dataDim train) train).samples E.toNumEnv = .ok ts
  vs_eq : (inferSet c (colFold npMax c0.dataDim train, colFold npMin c0.dataDim train) val).samples E.toNumEnv = .ok vs
  det1 : w1.det = { w.det with config := some c, vars := some t.names, pct := some pct, modelPath := some (E.joinPath c0.save) }
  disk1 : w1.disk = w.disk
  params1 : ∃ sizes, windowSizes E (w.params "sliding_window") = .ok sizes ∧ w1.params = w.params.after sizes t.names.length
  run : MM.Returns (epochs E c ts vs c.epochs.toNat (E.initState c, .pinf)) w1 w2 last
  load : MM.Returns (loadCheckpoint (some (E.joinPath c0.save))) w2 w3 ()
  thresholds : computeThresholds E w3.det train = .ok th
  final : w' = { w3 with det := { w3.det with threshold := some th.1, scoreMax := some th.2.1, scoreMin := some th.2.2 } }

theorem fit_ok {TS} {E : MEnv TS} {data : MData} {w w' : World} (h : fit E data w = (w', .ok ())) :
    ∃ f t c, data = .frame f ∧ Nonempty (FitRun E w w' f t c) := by
  replace h : MM.Returns (fit E data) w w' () := h
  unfold fit at h
  obtain ⟨w1, ⟨f, t, c0⟩, h1, h⟩ := MM.bind_ok.1 h
  have hacc : data = .frame f := (processData_ok h1).1
  have hA : Accepted E w.params f t c0 := by rw [hacc] at h1; exact accepted_of h1
  obtain ⟨-, -, -, hdet, hdisk, sizes, hsz, -, hpar⟩ := processData_ok h1
  dsimp only at h
  obtain ⟨w2, _, h2, h⟩ := MM.bind_ok.1 h
  obtain rfl := MM.modifyDet_ok.1 h2
  obtain ⟨w3, pct, h3, h⟩ := MM.bind_ok.1 h
  obtain ⟨rfl, hpct⟩ := MM.of_ok.1 h3
  obtain ⟨w4, _, h4, h⟩ := MM.bind_ok.1 h
  obtain rfl := MM.modifyDet_ok.1 h4
  rcases hs : split c0 t.rows with ⟨train, val⟩
  rw [hs] at h
  dsimp only at h
  split at h
  · exact (MM.throw_ok.1 h).elim
  · rename_i hne
    obtain ⟨w5, _, h5, h⟩ := MM.bind_ok.1 h
    obtain rfl := MM.modifyDet_ok.1 h5
    obtain ⟨w6, ts, h6, h⟩ := MM.bind_ok.1 h
    obtain ⟨rfl, hts⟩ := MM.of_ok.1 h6
    obtain ⟨w7, vs, h7, h⟩ := MM.bind_ok.1 h
    obtain ⟨rfl, hvs⟩ := MM.of_ok.1 h7
    rw [lift_ok] at hts hvs
    split at h
    · exact (MM.throw_ok.1 h).elim
    · obtain ⟨w8, last, h8, h⟩ := MM.bind_ok.1 h
      obtain ⟨w9, _, h9, h⟩ := MM.bind_ok.1 h
      obtain ⟨w10, v, h10, h⟩ := MM.bind_ok.1 h
      obtain ⟨rfl, rfl⟩ := MM.get_ok.1 h10
      obtain ⟨w11, r, h11, h⟩ := MM.bind_ok.1 h
      obtain ⟨rfl, hr⟩ := MM.of_ok.1 h11
      obtain rfl := MM.modifyDet_ok.1 h
      refine ⟨f, t, _, hacc, ⟨⟨c0, pct, train, val, ts, vs, _, w8, w9, last, r, hA, hpct, hs, ?_, rfl, hts, hvs, ?_, ?_, ?_, h8, h9,
        hr, rfl⟩⟩⟩
      · intro e; rw [e] at hne; exact hne rfl
      · rw [hdet]
      · exact hdisk
      · exact ⟨sizes, hsz, hpar⟩

/-! ### the epoch loop -/

theorem flt_trans {a b c : PyFloat} (h1 : a.lt b = true) (h2 : b.lt c = true) : a.lt c = true := by
  cases a <;> cases b <;> cases c <;> simp_all [PyFloat.lt]
  exact lt_trans h1 h2

theorem flt_irrefl (a : PyFloat) : a.lt a = false := by cases a <;> simp [PyFloat.lt]

theorem flt_of_not {a b c : PyFloat} (h1 : a.lt b = true) (h2 : c.lt b = false) : c = .nan ∨ a.lt c = true := by
  cases a <;> cases b <;> cases c <;> simp_all [PyFloat.lt]
  exact lt_of_lt_of_le h1 h2

/-- what the loop has done after `k` epochs, started in `w0` -/
structure LoopInv {TS : Type} (E : MEnv TS) (c : Config) (train val : List Sample) (w0 w : World) (k : Nat) (best : PyFloat) :
    Prop where
  det : ∃ m, w.det = { w0.det with model := m }
  params : w.params = w0.params
  disk : (best = .pinf ∧ (∀ j < k, (epochLoss E c train val j).lt .pinf = false) ∧ w = w0) ∨
    ∃ i, IsBest (epochLoss E c train val) k i ∧ best = epochLoss E c train val i ∧
      w.disk = fun x => if x = w0.det.modelPath.getD "" then
        .ckpt ⟨netAfter E c train (i + 1), c, w0.det.pct, w0.det.threshold, w0.det.scoreMax, w0.det.scoreMin⟩ else w0.disk x

theorem epoch_inv {TS} {E : MEnv TS} {c : Config} {train val : List Sample} {w0 w w' : World} {k : Nat} {best : PyFloat}
    {s : TS × PyFloat} (hI : LoopInv E c train val w0 w k best)
    (h : MM.Returns (epoch E c train val (stateAfter E c train k, best)) w w' s) :
    s.1 = stateAfter E c train (k + 1) ∧ LoopInv E c train val w0 w' (k + 1) s.2 := by
  unfold epoch at h
  split at h
  · exact (MM.throw_ok.1 h).elim
  · dsimp only at h
    split at h
    · exact (MM.throw_ok.1 h).elim
    · have hl : (evalEpoch E c (E.weights c (trainEpoch E c train (stateAfter E c train k)).1) (chunk c.batchSize val)).avg =
          epochLoss E c train val k := rfl
      rw [hl] at h
      obtain ⟨⟨m, hdet⟩, hpar, hdisk⟩ := hI
      split at h
      · rename_i hlt
        obtain ⟨w1, _, h1, h⟩ := MM.bind_ok.1 h
        obtain rfl := MM.modifyDet_ok.1 h1
        obtain ⟨w2, _, h2, h⟩ := MM.bind_ok.1 h
        obtain ⟨rfl, hs⟩ := MM.pure_ok.1 h
        subst hs
        unfold saveCheckpoint at h2
        obtain ⟨w3, v, h3, h2⟩ := MM.bind_ok.1 h2
        obtain ⟨rfl, rfl⟩ := MM.get_ok.1 h3
        obtain rfl := MM.writeFile_ok.1 h2
        refine ⟨rfl, ⟨some ⟨c, netAfter E c train (k + 1)⟩, by rw [hdet]; rfl⟩, hpar, .inr ⟨k, ?_, rfl, ?_⟩⟩
        · rcases hdisk with ⟨hb, hall, -⟩ | ⟨i, hi, hb, -⟩
          · rw [hb] at hlt
            refine ⟨Nat.lt_succ_self k, hlt, ?_, ?_⟩
            · intro j hj
              rcases Nat.lt_succ_iff_lt_or_eq.1 hj with hj | rfl
              · by_contra hc
                rw [Bool.not_eq_false] at hc
                have := flt_trans hc hlt
                rw [hall j hj] at this
                cases this
              · exact flt_irrefl _
            · intro j hj
              exact flt_of_not hlt (hall j hj)
          · rw [hb] at hlt
            refine ⟨Nat.lt_succ_self k, flt_trans hlt hi.below, ?_, ?_⟩
            · intro j hj
              rcases Nat.lt_succ_iff_lt_or_eq.1 hj with hj | rfl
              · by_contra hc
                rw [Bool.not_eq_false] at hc
                have := flt_trans hc hlt
                rw [hi.least j hj] at this
                cases this
              · exact flt_irrefl _
            · intro j hj
              exact flt_of_not hlt (hi.least j hj)
        · simp only [hdet]
          funext x
          by_cases hx : x = w0.det.modelPath.getD ""
          · rw [if_pos hx, if_pos hx]; rfl
          · rw [if_neg hx, if_neg hx]
            rcases hdisk with ⟨-, -, rfl⟩ | ⟨i, -, -, hd⟩
            · rfl
            · rw [hd]; exact if_neg hx
      · rename_i hlt
        obtain ⟨rfl, hs⟩ := MM.pure_ok.1 h
        subst hs
        rw [Bool.not_eq_true] at hlt
        refine ⟨rfl, ⟨m, hdet⟩, hpar, ?_⟩
        rcases hdisk with ⟨hb, hall, hw⟩ | ⟨i, hi, hb, hd⟩
        · refine .inl ⟨hb, ?_, hw⟩
          intro j hj
          rcases Nat.lt_succ_iff_lt_or_eq.1 hj with hj | rfl
          · exact hall j hj
          · rw [hb] at hlt; exact hlt
        · refine .inr ⟨i, ⟨Nat.lt_succ_of_lt hi.lt, hi.below, ?_, hi.first⟩, hb, hd⟩
          intro j hj
          rcases Nat.lt_succ_iff_lt_or_eq.1 hj with hj | rfl
          · exact hi.least j hj
          · rw [hb] at hlt; exact hlt

theorem epochs_inv {TS} {E : MEnv TS} {c : Config} {train val : List Sample} {w0 : World} (n : Nat) :
    ∀ {w w' : World} {k : Nat} {best : PyFloat} {s : TS × PyFloat}, LoopInv E c train val w0 w k best →
      MM.Returns (epochs E c train val n (stateAfter E c train k, best)) w w' s → LoopInv E c train val w0 w' (k + n) s.2 := by
  induction n with
  | zero =>
    intro w w' k best s hI h
    obtain ⟨rfl, hs⟩ := MM.pure_ok.1 (show MM.Returns (pure _) _ _ _ from h)
    subst hs
    exact hI
  | succ n ih =>
    intro w w' k best s hI h
    unfold epochs at h
    obtain ⟨w1, s1, h1, h⟩ := MM.bind_ok.1 h
    obtain ⟨e, hI1⟩ := epoch_inv hI h1
    have : s1 = (stateAfter E c train (k + 1), s1.2) := by rw [← e]
    rw [this] at h
    have := ih hI1 h
    rw [Nat.add_assoc, Nat.add_comm 1 n] at this
    exact this

theorem FitRun.loop {TS} {E : MEnv TS} {w w' : World} {f : Frame} {t : Table} {c : Config} (R : FitRun E w w' f t c) :
    LoopInv E c R.ts R.vs R.w1 R.w2 c.epochs.toNat R.last.2 := by
  have h0 : LoopInv E c R.ts R.vs R.w1 R.w1 0 .pinf :=
    ⟨⟨R.w1.det.model, rfl⟩, rfl, .inl ⟨rfl, by simp, rfl⟩⟩
  have := epochs_inv c.epochs.toNat h0 R.run
  rwa [Nat.zero_add] at this

theorem load_ok {p : Option String} {w w' : World} (h : MM.Returns (loadCheckpoint p) w w' ()) :
    ∃ x k, p = some x ∧ w.disk x = .ckpt k ∧ w' = { w with det :=
      { w.det with config := some k.config, model := some ⟨k.config, k.net⟩, pct := k.pct, threshold := k.threshold,
                   scoreMax := k.scoreMax, scoreMin := k.scoreMin } } := by
  unfold loadCheckpoint at h
  obtain ⟨w1, v, h1, h⟩ := MM.bind_ok.1 h
  obtain ⟨rfl, rfl⟩ := MM.get_ok.1 h1
  split at h
  · exact (MM.throw_ok.1 h).elim
  · split at h
    · exact (MM.throw_ok.1 h).elim
    · exact (MM.throw_ok.1 h).elim
    · rename_i k hk
      obtain rfl := MM.modifyDet_ok.1 h
      exact ⟨_, k, rfl, hk, rfl⟩

/-! ### the samples -/

theorem entry_getD {l : List ℚ} {v : Nat} (h : v < l.length) : entry l v = l.getD v 0 := by
  rw [entry_getElem h, List.getD_eq_getElem _ _ h]

theorem samples_windows {E : NumEnv} {D : Dataset} {dim : Nat} {ss : List Sample} (hm : D.mins.length = dim) (hM : D.maxs.length = dim)
    (hd : ∀ r ∈ D.data, r.length = dim) (hi : 0 < D.interval) (hh : 0 < D.horizon) (hc : D.clipMin ≤ D.clipMax)
    (h : D.samples E = .ok ss) :
    Windows E D.clipMin D.clipMax dim D.mins D.maxs D.window D.interval D.horizon D.data ss := by
  unfold Dataset.samples at h
  have hlen := mapM_ok_length h
  simp only [Dataset.ends, List.length_map, List.length_range] at hlen
  have hin : ∀ j < ss.length, j * D.interval + D.window + D.horizon ≤ D.data.length := by
    intro j hj
    rw [hlen] at hj
    have h1 : (j + 1) * D.interval ≤ D.data.length + 1 - D.horizon - D.window :=
      (Nat.le_div_iff_mul_le hi).1 hj
    have h2 : (j + 1) * D.interval = j * D.interval + D.interval := by ring
    omega
  have hs : ∀ j, ∀ hj : j < ss.length,
      SampleAt E D dim (D.window + j * D.interval) (j * D.interval + D.window + D.horizon - 1) ss[j] := by
    intro j hj
    have := mapM_ok_get h (i := j) (by simp [Dataset.ends]; omega)
    simp only [Dataset.ends, List.getElem_map, List.getElem_range] at this
    have h3 := hin j hj
    exact get_ok (by omega) hd (by omega) (by omega) (by omega) (by omega) this
  have hb : bcLen dim D.mins.length = dim := by simp [bcLen, hm]
  have hn : ∀ r v, r < D.data.length → v < dim →
      E.f32 (minmax (entry D.mins v) (entry D.maxs v) D.clipMin D.clipMax (entry (D.data.getD r []) v)) =
        normAt E D.clipMin D.clipMax (D.mins.getD v 0) (D.maxs.getD v 0) (cell D.data r v) := by
    intro r v hr hv
    unfold normAt minmax
    have hrow := hd _ (List.getElem_mem hr)
    unfold cell
    rw [List.getD_eq_getElem _ _ hr, clip_eq hc, entry_getD (l := D.mins) (by omega), entry_getD (l := D.maxs) (by omega),
      entry_getD (l := D.data[r]) (by omega)]
  refine ⟨hlen, ?_, ?_, ?_⟩
  · intro j hj
    have := hin j hj
    omega
  · intro j hj
    have h3 := hin j hj
    apply List.ext_getElem
    · rw [(hs j hj).len]; simp
    · intro i h1 h2
      have hw := (hs j hj).width _ (List.getElem_mem h1)
      rw [hb] at hw
      have hl := (hs j hj).len
      apply List.ext_getElem
      · rw [hw]; simp [normRowAt]
      · intro v h4 h5
        rw [(hs j hj).input i h1 v h4, hn _ _ (by omega) (by omega)]
        simp only [normRowAt, List.getElem_map, List.getElem_range]
        rw [show D.window + j * D.interval - D.window + i = j * D.interval + i by omega]
  · intro j hj
    have h3 := hin j hj
    have hw := (hs j hj).twidth
    rw [hb] at hw
    apply List.ext_getElem
    · rw [hw]; simp [normRowAt]
    · intro v h4 h5
      rw [(hs j hj).target v h4, hn _ _ (by omega) (by omega)]
      simp only [normRowAt, List.getElem_map, List.getElem_range]

theorem colFold_getD {g : List ℚ → ℚ} {dim v : Nat} {rows : List (List ℚ)} (h : v < dim) :
    (colFold g dim rows).getD v 0 = g (rows.map fun r => r.getD v 0) := by
  rw [List.getD_eq_getElem _ _ (by simpa [colFold] using h)]
  simp [colFold]

theorem col_mem {rows : List (List ℚ)} {v : Nat} {x : ℚ} :
    x ∈ rows.map (fun r => r.getD v 0) ↔ x ∈ {x | ∃ r < rows.length, x = cell rows r v} := by
  simp only [List.mem_map, Set.mem_setOf_eq]
  constructor
  · rintro ⟨row, hr, rfl⟩
    obtain ⟨i, hi, rfl⟩ := List.mem_iff_getElem.1 hr
    exact ⟨i, hi, by rw [cell, List.getD_eq_getElem _ _ hi]⟩
  · rintro ⟨r, hr, rfl⟩
    exact ⟨rows[r], List.getElem_mem hr, by rw [cell, List.getD_eq_getElem _ _ hr]⟩

theorem col_greatest {rows : List (List ℚ)} (h : rows ≠ []) (v : Nat) :
    IsGreatest {x | ∃ r < rows.length, x = cell rows r v} (npMax (rows.map fun r => r.getD v 0)) :=
  ⟨col_mem.1 (npMax_mem (by simpa using h)), fun _ hx => le_npMax (col_mem.2 hx)⟩

theorem col_least {rows : List (List ℚ)} (h : rows ≠ []) (v : Nat) :
    IsLeast {x | ∃ r < rows.length, x = cell rows r v} (npMin (rows.map fun r => r.getD v 0)) :=
  ⟨col_mem.1 (npMin_mem (by simpa using h)), fun _ hx => npMin_le (col_mem.2 hx)⟩

theorem dmul_nonneg {n : Nat} {p : ℚ} (hp : 0 ≤ p) : 0 ≤ dmul n p := by
  unfold dmul
  rw [roundSigned_pos (by positivity)]
  exact roundDouble_nonneg _

theorem intMul_toNat {n : Nat} {p : ℚ} (hp : 0 ≤ p) : (intMul n p).toNat = ⌊dmul n p⌋₊ := by
  have h0 : 0 ≤ dmul n p := dmul_nonneg hp
  unfold intMul pyInt
  rw [if_pos h0]
  rfl

theorem intMul_literal {n a b : Nat} {d : ℚ} (hb : 0 < b) (hab : a ≤ b) (hd : 0 < d) (hlow : (a : ℚ) / b - d < d / 2 ^ 54)
    (hhigh : d - a / b ≤ 1 / 2 ^ 53) (hn : n * b < 2 ^ 50) : intMul n d = ((a * n / b : Nat) : Int) := by
  unfold intMul pyInt
  rw [if_pos (dmul_nonneg hd.le)]
  exact dmul_literal hb hab hd hlow hhigh hn

theorem lit95_pos : 0 < roundDouble (95 / 100) := by decide +kernel
theorem lit95_low : ((95 : Nat) : ℚ) / (100 : Nat) - roundDouble (95 / 100) < roundDouble (95 / 100) / 2 ^ 54 := by decide +kernel
theorem lit95_high : roundDouble (95 / 100) - ((95 : Nat) : ℚ) / (100 : Nat) ≤ 1 / 2 ^ 53 := by decide +kernel
theorem lit8_pos : 0 < roundDouble (8 / 10) := by decide +kernel
theorem lit8_low : ((8 : Nat) : ℚ) / (10 : Nat) - roundDouble (8 / 10) < roundDouble (8 / 10) / 2 ^ 54 := by decide +kernel
theorem lit8_high : roundDouble (8 / 10) - ((8 : Nat) : ℚ) / (10 : Nat) ≤ 1 / 2 ^ 53 := by decide +kernel
theorem lit1_pos : 0 < roundDouble (1 / 10) := by decide +kernel
theorem lit1_low : ((1 : Nat) : ℚ) / (10 : Nat) - roundDouble (1 / 10) < roundDouble (1 / 10) / 2 ^ 54 := by decide +kernel
theorem lit1_high : roundDouble (1 / 10) - ((1 : Nat) : ℚ) / (10 : Nat) ≤ 1 / 2 ^ 53 := by decide +kernel

/-- the whole part of `0.95 n` -/
theorem intMul95 {n : Nat} (hn : n < 2 ^ 40) : intMul n (roundDouble (95 / 100)) = ((95 * n / 100 : Nat) : Int) :=
  intMul_literal (by norm_num) (by norm_num) lit95_pos lit95_low lit95_high (by omega)

/-- the whole part of `0.8 n` -/
theorem intMul8 {n : Nat} (hn : n < 2 ^ 40) : intMul n (roundDouble (8 / 10)) = ((8 * n / 10 : Nat) : Int) :=
  intMul_literal (by norm_num) (by norm_num) lit8_pos lit8_low lit8_high (by omega)

/-- the whole part of `0.1 n` -/
theorem intMul1 {n : Nat} (hn : n < 2 ^ 40) : intMul n (roundDouble (1 / 10)) = ((1 * n / 10 : Nat) : Int) :=
  intMul_literal (by norm_num) (by norm_num) lit1_pos lit1_low lit1_high (by omega)

theorem accepted_good {TS} {E : MEnv TS} {p : Params} {f : Frame} {t : Table} {c : Config} (h : Accepted E p f t c) :
    c.Good ∧ c.dataDim = t.names.length ∧ c.base = none := by
  obtain ⟨hok, ⟨P, -, ht⟩, s, hs, hc⟩ := h
  have := ofParams_good (processed_dims hok ht) (windowSizes_pos hs) hc
  exact ⟨this.1, this.2.1, this.2.2.2.2⟩

theorem FitRun.prepared {TS} {E : MEnv TS} (hE : E.WF) {w w' : World} {f : Frame} {t : Table} {c : Config} (R : FitRun E w w' f t c) :
    Prepared E w.params f t c R.train R.val R.ts R.vs := by
  obtain ⟨c0, pct, train, val, ts, vs, w1, w2, w3, last, th, hacc, -, hsp, hne, rfl, hts, hvs, -, -, -, -, -, -, -⟩ := R
  dsimp only
  obtain ⟨hg, hdim, hb0⟩ := accepted_good hacc
  unfold split at hsp
  rw [Prod.mk.injEq, intMul_toNat hg.train, intMul_toNat hg.val] at hsp
  obtain ⟨htr, hva⟩ := hsp
  have hval : val = (t.rows.drop ⌊dmul t.rows.length c0.trainRatio⌋₊).take ⌊dmul t.rows.length c0.valRatio⌋₊ := by
    rw [← hva, List.drop_take, Nat.add_sub_cancel]
  have hrows : ∀ r ∈ t.rows, r.length = c0.dataDim := by
    intro r hr
    obtain ⟨P, -, ht⟩ := hacc.filled
    rw [rows_width t r hr, hdim, (processed_sizes hE.table ht).2]
  have hrt : ∀ r ∈ train, r.length = c0.dataDim := fun r hr => hrows r (List.mem_of_mem_take (htr ▸ hr))
  have hrv : ∀ r ∈ val, r.length = c0.dataDim := fun r hr => by
    rw [hval] at hr
    exact hrows r (List.mem_of_mem_drop (List.mem_of_mem_take hr))
  have hlM := colFold_length npMax c0.dataDim train
  have hlm := colFold_length npMin c0.dataDim train
  refine ⟨?_, hdim, htr.symm, hval, hne, colFold npMax c0.dataDim train, colFold npMin c0.dataDim train, rfl, hlM, hlm, ?_, ?_, ?_⟩
  · rw [show c0 = { c0 with base := none } from by rw [← hb0]] at hacc
    exact hacc
  · intro v hv
    dsimp only at hv
    rw [colFold_getD hv, colFold_getD hv]
    exact ⟨col_greatest hne v, col_least hne v⟩
  · exact samples_windows (D := trainSet _ (colFold npMax c0.dataDim train, colFold npMin c0.dataDim train) train) hlm hlM hrt hg.interval hg.horizon (by simp [trainSet]) hts
  · exact samples_windows (D := inferSet _ (colFold npMax c0.dataDim train, colFold npMin c0.dataDim train) val) hlm hlM hrv (by simp [inferSet]) (by simp [inferSet]) (by norm_num [inferSet]) hvs

/-! ### the outcome -/

/-- what a `fit` that returns leaves behind; `path` is the checkpoint file -/
structure Outcome {TS : Type} (E : MEnv TS) (w w' : World) (t : Table) (c : Config) (pct : List ℚ) (ts vs : List Sample)
    (path : String) : Prop where
  vars : w'.det.vars = some t.names
  modelPath : w'.det.modelPath = some path
  restored : (∃ i, IsBest (epochLoss E c ts vs) c.epochs.toNat i ∧ w'.det.config = some c ∧
      w'.det.model = some ⟨c, netAfter E c ts (i + 1)⟩ ∧ w'.det.pct = some pct ∧
      w'.disk path = .ckpt ⟨netAfter E c ts (i + 1), c, some pct, w.det.threshold, w.det.scoreMax, w.det.scoreMin⟩ ∧
      ∀ x ≠ path, w'.disk x = w.disk x) ∨
    ((∀ j < c.epochs.toNat, (epochLoss E c ts vs j).lt .pinf = false) ∧ w'.disk = w.disk ∧
      ∃ k, w.disk path = .ckpt k ∧ w'.det.config = some k.config ∧ w'.det.model = some ⟨k.config, k.net⟩ ∧ w'.det.pct = k.pct)

theorem FitRun.outcome {TS} {E : MEnv TS} {w w' : World} {f : Frame} {t : Table} {c : Config} (R : FitRun E w w' f t c) :
    Outcome E w w' t c R.pct R.ts R.vs (E.joinPath c.save) ∧
      (∃ sizes, windowSizes E (w.params "sliding_window") = .ok sizes ∧ w'.params = w.params.after sizes t.names.length) ∧
      computeThresholds E w'.det R.train = .ok R.th ∧
      w'.det.threshold = some R.th.1 ∧ w'.det.scoreMax = some R.th.2.1 ∧ w'.det.scoreMin = some R.th.2.2 := by
  have hloop := R.loop
  revert hloop
  obtain ⟨c0, pct, train, val, ts, vs, w1, w2, w3, last, th, hacc, -, -, hne, rfl, -, -, hdet1, hdisk1, hpar1, -, hload, hth, hfin⟩ := R
  intro hloop
  dsimp only at hloop ⊢
  obtain ⟨x, k, hx, hk, rfl⟩ := load_ok hload
  cases hx
  obtain ⟨⟨m, hdet2⟩, hpar2, hdisk2⟩ := hloop
  rw [hdet1] at hdet2
  subst hfin
  refine ⟨⟨by simp [hdet2], by simp [hdet2], ?_⟩, ?_, hth, rfl, rfl, rfl⟩
  · rcases hdisk2 with ⟨-, hall, rfl⟩ | ⟨i, hi, -, hd⟩
    · right
      refine ⟨hall, hdisk1, k, ?_, rfl, rfl, rfl⟩
      rw [← hdisk1]; exact hk
    · left
      rw [hdet1, hdisk1] at hd
      simp only [Option.getD_some] at hd
      have hk2 := hk
      rw [hd] at hk2
      simp only [if_pos] at hk2
      cases hk2
      refine ⟨i, hi, rfl, rfl, rfl, hk, ?_⟩
      intro x hx
      show w2.disk x = _
      rw [hd]
      exact if_neg hx
  · obtain ⟨s, hs, hp⟩ := hpar1
    exact ⟨s, hs, hpar2.trans hp⟩

end Verif.Multi
