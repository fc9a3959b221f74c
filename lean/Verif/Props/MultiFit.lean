import Verif.Multi.Fit
import Verif.Props.MultiPredict

/-!
# Theorems: training

Which rows a `fit` uses, what the samples are, which network it restores, what it leaves in the params dict and in the checkpoint.
-/

namespace Verif

open Multi Spec

/-! ### rows and samples -/

/-- **C64**. A `fit` that returns trained on the first `⌊n·train_ratio⌋` rows of the filled table and validated with the
`⌊n·val_ratio⌋` rows after them, the products rounded to doubles; the two blocks are disjoint and consecutive. The normalisation range
of every variable is the largest and the smallest training value, and every sample is cut from the rows of its own block. -/
theorem C64_split {TS} {E : MEnv TS} (hE : E.WF) {data : MData} {w w' : World} (h : Multi.fit E data w = (w', .ok ())) :
    ∃ f t c train val ts vs, data = .frame f ∧ Prepared E w.params f t c train val ts vs ∧ ∃ rest, t.rows = train ++ val ++ rest := by
  obtain ⟨f, t, c, hd, ⟨R⟩⟩ := fit_ok h
  have hp := R.prepared hE
  refine ⟨f, t, c, R.train, R.val, R.ts, R.vs, hd, hp,
    (t.rows.drop ⌊dmul t.rows.length c.trainRatio⌋₊).drop ⌊dmul t.rows.length c.valRatio⌋₊, ?_⟩
  rw [hp.train_eq, hp.val_eq, List.append_assoc, List.take_append_drop, List.take_append_drop]

/-- **C64** (default ratios). Without the keys `train_ratio` and `val_ratio` these are the first `⌊8n/10⌋` and the next `⌊n/10⌋` of `n` rows:
the products with the doubles 0.8 and 0.1 never come out on the wrong side of a whole number. -/
theorem C64_default {TS} {E : MEnv TS} {p : Params} {f : Frame} {t : Table} {c : Config} {train val : List (List ℚ)} {ts vs : List Sample}
    (h : Prepared E p f t c train val ts vs) (htr : p "train_ratio" = none) (hvr : p "val_ratio" = none) (hn : t.rows.length < 2 ^ 40) :
    train = t.rows.take (8 * t.rows.length / 10) ∧ val = (t.rows.drop (8 * t.rows.length / 10)).take (t.rows.length / 10) := by
  obtain ⟨sizes, -, hc⟩ := h.accepted.config
  have hr : c.trainRatio = roundDouble (8 / 10) ∧ c.valRatio = roundDouble (1 / 10) := by
    have e1 : (p.after sizes t.names.length) "train_ratio" = none := by simp [Params.after, htr]
    have e2 : (p.after sizes t.names.length) "val_ratio" = none := by simp [Params.after, hvr]
    obtain ⟨h1, h2, -⟩ := ofParams_ratios hc
    simp only [readRat, e1, e2, Except.ok.injEq] at h1 h2
    exact ⟨h1.symm, h2.symm⟩
  have h8 := intMul_toNat (n := t.rows.length) lit8_pos.le
  have h1 := intMul_toNat (n := t.rows.length) lit1_pos.le
  rw [intMul8 hn, Int.toNat_natCast] at h8
  rw [intMul1 hn, Int.toNat_natCast, one_mul] at h1
  rw [h.train_eq, h.val_eq, hr.1, hr.2, ← h8, ← h1]
  exact ⟨rfl, rfl⟩

/-- **C64** (any ratio). The number of training rows is `n·train_ratio` rounded down or up, cut to `n`. -/
theorem C64_rounded {TS} {E : MEnv TS} {p : Params} {f : Frame} {t : Table} {c : Config} {train val : List (List ℚ)} {ts vs : List Sample}
    (h : Prepared E p f t c train val ts vs) (hn : ⌈t.rows.length * c.trainRatio⌉ < 2 ^ 53) :
    min (t.rows.length : Int) ⌊t.rows.length * c.trainRatio⌋ ≤ train.length ∧ (train.length : Int) ≤ ⌈t.rows.length * c.trainRatio⌉ := by
  obtain ⟨hg, -, -⟩ := accepted_good h.accepted
  have h0 : 0 ≤ c.trainRatio := hg.train
  have hp : 0 ≤ (t.rows.length : ℚ) * c.trainRatio := by positivity
  have hlen : train.length = min ⌊dmul t.rows.length c.trainRatio⌋₊ t.rows.length := by rw [h.train_eq, List.length_take]
  have hc0 : 0 ≤ ⌈(t.rows.length : ℚ) * c.trainRatio⌉ := Int.ceil_nonneg hp
  have hf0 : 0 ≤ ⌊(t.rows.length : ℚ) * c.trainRatio⌋ := Int.floor_nonneg.2 hp
  have hfc : ⌊(t.rows.length : ℚ) * c.trainRatio⌋ ≤ ⌈(t.rows.length : ℚ) * c.trainRatio⌉ := Int.floor_le_ceil _
  have hlow : (⌊(t.rows.length : ℚ) * c.trainRatio⌋ : ℚ) ≤ dmul t.rows.length c.trainRatio :=
    int_le_roundSigned (by rw [abs_of_nonneg hf0]; omega) (Int.floor_le _)
  have hhigh : dmul t.rows.length c.trainRatio ≤ (⌈(t.rows.length : ℚ) * c.trainRatio⌉ : ℚ) :=
    roundSigned_le_int (by rw [abs_of_nonneg hc0]; omega) (Int.le_ceil _)
  have e : (⌊dmul t.rows.length c.trainRatio⌋₊ : Int) = ⌊dmul t.rows.length c.trainRatio⌋ := Int.natCast_floor_eq_floor (dmul_nonneg h0)
  have h1 : ⌊(t.rows.length : ℚ) * c.trainRatio⌋ ≤ ⌊dmul t.rows.length c.trainRatio⌋ := Int.le_floor.2 hlow
  have h2 : ⌊dmul t.rows.length c.trainRatio⌋ ≤ ⌈(t.rows.length : ℚ) * c.trainRatio⌉ := by
    have := Int.floor_le (dmul t.rows.length c.trainRatio)
    exact_mod_cast this.trans hhigh
  rw [hlen]
  push_cast
  rw [e]
  omega

/-- **C64** (a ratio that is not kept). The ratio 0.7 of 90 rows is 62 rows, not 63: the double product is 62.99999999999999. -/
theorem C64_short (c : Config) (h : c.trainRatio = roundDouble (7 / 10)) (rows : List (List ℚ)) (hr : rows.length = 90) :
    (split c rows).1.length = 62 := by
  have e : (intMul 90 (roundDouble (7 / 10))).toNat = 62 := by decide +kernel
  unfold split
  rw [h, hr, e]
  simp [hr]

/-- **C50** (training samples). Every window and every target of a training or validation sample lies inside its block of rows,
the target behind the window; sample `j` starts at row `j·interval`. Every position of validation is used once. -/
theorem C50_samples {TS} {E : MEnv TS} {p : Params} {f : Frame} {t : Table} {c : Config} {train val : List (List ℚ)}
    {ts vs : List Sample} (h : Prepared E p f t c train val ts vs) :
    (∀ j < ts.length, j * c.interval + c.inputSize ≤ j * c.interval + c.inputSize + c.horizon - 1 ∧
      j * c.interval + c.inputSize + c.horizon - 1 < train.length) ∧
    vs.length = val.length - c.inputSize ∧ ∀ r, c.inputSize ≤ r → r < val.length → ∃! j, j < vs.length ∧ c.inputSize + j = r := by
  obtain ⟨maxs, mins, -, -, -, -, h1, h2⟩ := h.range
  have hc := h2.count
  simp only [Nat.div_one, Nat.add_sub_cancel] at hc
  refine ⟨fun j hj => (h1.inside j hj).symm, hc, fun r h3 h4 => ⟨r - c.inputSize, ⟨by omega, by omega⟩, ?_⟩⟩
  rintro j ⟨-, hj⟩
  omega

/-- **C50** (scored rows). Inference on `n` rows makes exactly one sample for each of the rows `input_size, …, n - 1`, and none when
there are no such rows; window and target are the rows the row number says. -/
theorem C50_inference {E : NumEnv} {c : Config} {maxs mins : List ℚ} {rows : List (List ℚ)} {dim : Nat} {ss : List Sample}
    (hM : maxs.length = dim) (hm : mins.length = dim) (hr : ∀ r ∈ rows, r.length = dim)
    (h : (inferSet c (maxs, mins) rows).samples E = .ok ss) :
    ss.length = rows.length - c.inputSize ∧ ∀ j, ∀ hj : j < ss.length, c.inputSize + j < rows.length ∧
      ss[j].input = (List.range c.inputSize).map (fun i => normRowAt E (-1000) 1000 dim mins maxs rows (j + i)) ∧
      ss[j].target = normRowAt E (-1000) 1000 dim mins maxs rows (c.inputSize + j) := by
  have hw := samples_windows (D := inferSet c (maxs, mins) rows) hm hM hr (by simp [inferSet]) (by simp [inferSet])
    (by norm_num [inferSet]) h
  have hc := hw.count
  simp only [inferSet, Nat.div_one, Nat.add_sub_cancel] at hc
  refine ⟨hc, fun j hj => ⟨by omega, ?_, ?_⟩⟩
  · have := hw.window j hj
    simpa [inferSet] using this
  · have := hw.target j hj
    simpa [inferSet, Nat.add_comm] using this

/-! ### normalisation -/

theorem f32_unit {E : NumEnv} (hE : E.WF) {x : ℚ} (h0 : 0 ≤ x) (h1 : x ≤ 1) : 0 ≤ E.f32 x ∧ E.f32 x ≤ 1 := by
  have e0 := hE.f32_int 0 (by norm_num)
  have e1 := hE.f32_int 1 (by norm_num)
  norm_num at e0 e1
  exact ⟨by rw [← e0]; exact hE.f32_mono h0, by rw [← e1]; exact hE.f32_mono h1⟩

/-- a value inside the range is moved into `[0, 1]`, whatever the cut -/
theorem normAt_inside {E : NumEnv} {lo hi mn mx x : ℚ} (hlo : lo ≤ 0) (hhi : 1 ≤ hi) (h1 : mn ≤ x) (h2 : x ≤ mx) :
    normAt E lo hi mn mx x = E.f32 ((x - mn) / (mx - mn + 1 / 100000000)) ∧
      0 ≤ (x - mn) / (mx - mn + 1 / 100000000) ∧ (x - mn) / (mx - mn + 1 / 100000000) ≤ 1 := by
  have hpos : 0 < mx - mn + 1 / 100000000 := by linarith
  have h3 : 0 ≤ (x - mn) / (mx - mn + 1 / 100000000) := div_nonneg (by linarith) hpos.le
  have h4 : (x - mn) / (mx - mn + 1 / 100000000) ≤ 1 := by
    rw [div_le_one hpos]
    linarith
  refine ⟨?_, h3, h4⟩
  unfold normAt
  rw [min_eq_right (h4.trans hhi), max_eq_right (hlo.trans h3)]

theorem normAt_range {E : NumEnv} (hE : E.WF) (mn mx x : ℚ) : 0 ≤ normAt E 0 1 mn mx x ∧ normAt E 0 1 mn mx x ≤ 1 :=
  f32_unit hE (le_max_left _ _) (max_le (by norm_num) (min_le_left _ _))

/-- **C59** (training samples). Every entry of every window and target a `fit` trains with lies in `[0, 1]`. -/
theorem C59_samples {TS} {E : MEnv TS} (hE : E.WF) {p : Params} {f : Frame} {t : Table} {c : Config} {train val : List (List ℚ)}
    {ts vs : List Sample} (h : Prepared E p f t c train val ts vs) (s : Sample) (hs : s ∈ ts) (row : List ℚ)
    (hr : row ∈ s.target :: s.input) (x : ℚ) (hx : x ∈ row) : 0 ≤ x ∧ x ≤ 1 := by
  obtain ⟨maxs, mins, -, -, -, -, hw, -⟩ := h.range
  obtain ⟨j, hj, rfl⟩ := List.mem_iff_getElem.1 hs
  rw [hw.target j hj, hw.window j hj] at hr
  have : ∃ r, row = normRowAt E.toNumEnv 0 1 c.dataDim mins maxs train r := by
    rcases List.mem_cons.1 hr with h | h
    · exact ⟨_, h⟩
    · obtain ⟨i, -, rfl⟩ := List.mem_map.1 h
      exact ⟨_, rfl⟩
  obtain ⟨r, rfl⟩ := this
  obtain ⟨v, -, rfl⟩ := List.mem_map.1 hx
  exact normAt_range hE.num _ _ _

/-- **C59** (training values). The values of the training rows relative to the training range are in `[0, 1]` before the cut, so the
cut changes none of them. -/
theorem C59_training {TS} {E : MEnv TS} {p : Params} {f : Frame} {t : Table} {c : Config} {train val : List (List ℚ)}
    {ts vs : List Sample} (h : Prepared E p f t c train val ts vs) :
    ∃ maxs mins, c.base = some (maxs, mins) ∧ ∀ r < train.length, ∀ v < c.dataDim,
      normAt E.toNumEnv 0 1 (mins.getD v 0) (maxs.getD v 0) (cell train r v) =
        E.f32 ((cell train r v - mins.getD v 0) / (maxs.getD v 0 - mins.getD v 0 + 1 / 100000000)) := by
  obtain ⟨maxs, mins, hb, -, -, hr, -, -⟩ := h.range
  refine ⟨maxs, mins, hb, fun r hrl v hv => ?_⟩
  obtain ⟨hG, hL⟩ := hr v hv
  exact (normAt_inside (E := E.toNumEnv) (le_refl 0) (le_refl 1) (hL.2 ⟨r, hrl, rfl⟩) (hG.2 ⟨r, hrl, rfl⟩)).1

/-- **C59** (inference). A normalised cell lies in `[-1000, 1000]`; a cell inside the range of its variable is not cut and lies in
`[0, 1]`. -/
theorem C59_inference {S : Scorer} (hE : S.E.WF) (rows : List (List ℚ)) (r v : Nat) :
    -1000 ≤ S.normed rows r v ∧ S.normed rows r v ≤ 1000 ∧
      (entry S.mins v ≤ cell rows r v → cell rows r v ≤ entry S.maxs v →
        S.normed rows r v = S.E.f32 ((cell rows r v - entry S.mins v) / (entry S.maxs v - entry S.mins v + 1 / 100000000)) ∧
        0 ≤ S.normed rows r v ∧ S.normed rows r v ≤ 1) := by
  have e1 := hE.f32_int (-1000) (by norm_num)
  have e2 := hE.f32_int 1000 (by norm_num)
  norm_num at e1 e2
  refine ⟨?_, ?_, fun h1 h2 => ?_⟩
  · rw [← e1]
    exact hE.f32_mono (le_max_left _ _)
  · rw [← e2]
    exact hE.f32_mono (max_le (by norm_num) (min_le_left _ _))
  · have := normAt_inside (E := S.E) (lo := -1000) (hi := 1000) (by norm_num) (by norm_num) h1 h2
    have e : S.normed rows r v = normAt S.E (-1000) 1000 (entry S.mins v) (entry S.maxs v) (cell rows r v) := rfl
    rw [e]
    refine ⟨this.1, ?_⟩
    rw [this.1]
    exact f32_unit hE this.2.1 this.2.2

/-! ### the restored network -/

/-- **C58**. When a `fit` returns, then either some epoch had a loss below infinity, and the detector holds the network of the first
epoch with the smallest loss, the configuration it was trained with, and this is what the checkpoint contains; or no epoch had
such a loss, and the detector holds whatever checkpoint was in the save directory before the call. -/
theorem C58_best_epoch {TS} {E : MEnv TS} (hE : E.WF) {data : MData} {w w' : World} (h : Multi.fit E data w = (w', .ok ())) :
    ∃ f t c train val ts vs, data = .frame f ∧ Prepared E w.params f t c train val ts vs ∧
      ((∃ i, IsBest (epochLoss E c ts vs) c.epochs.toNat i ∧ w'.det.config = some c ∧
        w'.det.model = some ⟨c, netAfter E c ts (i + 1)⟩ ∧
        ∃ k, w'.disk (E.joinPath c.save) = .ckpt k ∧ k.net = netAfter E c ts (i + 1) ∧ k.config = c) ∨
      ((∀ j < c.epochs.toNat, (epochLoss E c ts vs j).lt .pinf = false) ∧
        ∃ k, w.disk (E.joinPath c.save) = .ckpt k ∧ w'.det.config = some k.config ∧ w'.det.model = some ⟨k.config, k.net⟩)) := by
  obtain ⟨f, t, c, hd, ⟨R⟩⟩ := fit_ok h
  refine ⟨f, t, c, R.train, R.val, R.ts, R.vs, hd, R.prepared hE, ?_⟩
  rcases R.outcome.1.restored with ⟨i, hi, h1, h2, -, h4, -⟩ | ⟨hall, -, k, h1, h2, h3, -⟩
  · exact .inl ⟨i, hi, h1, h2, _, h4, rfl, rfl⟩
  · exact .inr ⟨hall, k, h1, h2, h3⟩

/-- **C58** (uniqueness). There is at most one first epoch with the smallest loss. -/
theorem C58_unique {loss : Nat → PyFloat} {n i j : Nat} (hi : IsBest loss n i) (hj : IsBest loss n j) : i = j := by
  rcases lt_trichotomy i j with h | h | h
  · rcases hj.first i h with h1 | h1
    · have := hi.below
      rw [h1] at this
      cases this
    · rw [hi.least j hj.lt] at h1
      cases h1
  · exact h
  · rcases hi.first j h with h1 | h1
    · have := hj.below
      rw [h1] at this
      cases this
    · rw [hj.least i hi.lt] at h1
      cases h1

/-- **C58** (existence). Some epoch has a loss below infinity exactly when there is a best epoch. -/
theorem C58_exists (loss : Nat → PyFloat) (n : Nat) : (∃ j < n, (loss j).lt .pinf = true) ↔ ∃ i, IsBest loss n i := by
  constructor
  · induction n with
    | zero => rintro ⟨j, hj, -⟩; omega
    | succ n ih =>
      rintro ⟨j, hj, hl⟩
      by_cases he : ∃ j < n, (loss j).lt .pinf = true
      · obtain ⟨i, hi⟩ := ih he
        by_cases hn : (loss n).lt (loss i) = true
        · refine ⟨n, Nat.lt_succ_self n, flt_trans hn hi.below, ?_, ?_⟩
          · intro k hk
            rcases Nat.lt_succ_iff_lt_or_eq.1 hk with hk | rfl
            · by_contra hc
              rw [Bool.not_eq_false] at hc
              have := flt_trans hc hn
              rw [hi.least k hk] at this
              cases this
            · exact flt_irrefl _
          · intro k hk
            exact flt_of_not hn (hi.least k hk)
        · rw [Bool.not_eq_true] at hn
          refine ⟨i, Nat.lt_succ_of_lt hi.lt, hi.below, ?_, hi.first⟩
          intro k hk
          rcases Nat.lt_succ_iff_lt_or_eq.1 hk with hk | rfl
          · exact hi.least k hk
          · exact hn
      · push Not at he
        have hjn : j = n := by
          by_contra hne
          exact he j (by omega) hl
        subst hjn
        refine ⟨j, Nat.lt_succ_self j, hl, ?_, ?_⟩
        · intro k hk
          rcases Nat.lt_succ_iff_lt_or_eq.1 hk with hk | rfl
          · by_contra hc
            rw [Bool.not_eq_false] at hc
            exact he k hk (flt_trans hc hl)
          · exact flt_irrefl _
        · intro k hk
          exact flt_of_not hl (by simpa using he k hk)
  · rintro ⟨i, hi⟩
    exact ⟨i, hi.lt, hi.below⟩

/-! ### losses and training steps -/

theorem fadd_nan (x : PyFloat) : fadd x .nan = .nan := by cases x <;> rfl

theorem evalEpoch_fin {TS} {E : MEnv TS} {c : Config} {net : Option Net} (x : List Sample → ℚ) (bs : List (List Sample))
    (h : ∀ b ∈ bs, E.evalLoss c net b = .fin (x b)) (m : Meter) (s : ℚ) (hs : m.sum = .fin s) (ha : m.avg = .fin (s / m.count)) :
    (bs.foldl (fun m b => m.update (E.evalLoss c net b) b.length) m).avg =
      .fin ((s + (bs.map x).sum) / (m.count + bs.flatten.length : Nat)) := by
  induction bs generalizing m s with
  | nil => simpa using ha
  | cons b bs ih =>
    rw [List.foldl_cons]
    have hb : (m.update (E.evalLoss c net b) b.length).sum = .fin (s + x b) := by
      simp only [Meter.update, hs, h b (by simp), fadd]
    rw [ih (fun b' hb' => h b' (by simp [hb'])) _ (s + x b) hb (by
      simp only [Meter.update, hs, h b (by simp), fadd, fdivNat])]
    simp only [Meter.update, List.map_cons, List.sum_cons, List.flatten_cons, List.length_append]
    rw [add_assoc, Nat.add_assoc]

theorem evalEpoch_nan {TS} {E : MEnv TS} {c : Config} {net : Option Net} (bs : List (List Sample)) (m : Meter)
    (h : m.sum = .nan ∧ m.avg = .nan ∨ ∃ b ∈ bs, E.evalLoss c net b = .nan) :
    (bs.foldl (fun m b => m.update (E.evalLoss c net b) b.length) m).avg = .nan := by
  induction bs generalizing m with
  | nil =>
    rcases h with h | ⟨b, hb, -⟩
    · exact h.2
    · cases hb
  | cons b bs ih =>
    rw [List.foldl_cons]
    apply ih
    rcases h with h | ⟨b', hb', h⟩
    · left
      simp only [Meter.update, h.1]
      cases E.evalLoss c net b <;> exact ⟨rfl, rfl⟩
    · rcases List.mem_cons.1 hb' with rfl | hb'
      · left
        simp only [Meter.update, h, fadd_nan, fdivNat, and_self]
      · exact .inr ⟨b', hb', h⟩

/-- **C63**. The validation samples are evaluated in consecutive batches of at most `batch_size` samples; when the losses of all batches
are finite, the loss of the epoch is their sum divided by the number of samples (0 when there are no samples), and it is NaN when
one of them is NaN. -/
theorem C63_average {TS} (E : MEnv TS) {c : Config} (hc : 0 < c.batchSize) (ts vs : List Sample) (k : Nat) :
    ∃ batches : List (List Sample), batches.flatten = vs ∧ (∀ b ∈ batches, 0 < b.length ∧ b.length ≤ c.batchSize) ∧
      (∀ x : List Sample → ℚ, (∀ b ∈ batches, E.evalLoss c (netAfter E c ts (k + 1)) b = .fin (x b)) →
        epochLoss E c ts vs k = .fin ((batches.map x).sum / vs.length)) ∧
      ((∃ b ∈ batches, E.evalLoss c (netAfter E c ts (k + 1)) b = .nan) → epochLoss E c ts vs k = .nan) := by
  refine ⟨chunk c.batchSize vs, chunk_flatten hc vs, chunk_mem_length hc vs, ?_, ?_⟩
  · intro x hx
    unfold epochLoss evalEpoch
    rw [evalEpoch_fin x _ hx Meter.reset 0 rfl (by simp [Meter.reset]), chunk_flatten hc]
    simp [Meter.reset]
  · intro h
    exact evalEpoch_nan _ _ (.inr h)

/-- **C63** (no validation rows). Without validation samples every epoch has loss 0, so a `fit` with at least one epoch keeps the network of
the first epoch. -/
theorem C63_no_validation {TS} (E : MEnv TS) {c : Config} (hc : 0 < c.batchSize) (ts : List Sample) (n : Nat) (hn : 0 < n) :
    IsBest (epochLoss E c ts []) n 0 := by
  have h : ∀ k, epochLoss E c ts [] k = .fin 0 := by
    intro k
    unfold epochLoss
    rw [chunk_nil hc]
    rfl
  refine ⟨hn, by rw [h]; rfl, fun j _ => by rw [h, h]; exact flt_irrefl _, fun j hj => by omega⟩

theorem trainEpoch_fst {TS} (E : MEnv TS) (c : Config) (bs : List (List Sample)) (s : TS × Meter) :
    (bs.foldl (fun (s : TS × Meter) b => let (t, l) := E.step c s.1 b; (t, s.2.update l b.length)) s).1 =
      bs.foldl (fun s b => (E.step c s b).1) s.1 := by
  induction bs generalizing s with
  | nil => rfl
  | cons b bs ih => rw [List.foldl_cons, ih]; rfl

theorem trainBatches_spec {batch : Nat} (hb : 0 < batch) (l : List Sample) :
    ((chunk batch l).filter fun b => b.length = batch).flatten = l.take (l.length / batch * batch) := by
  induction l using chunk_induction hb with
  | h0 => simp [chunk_nil hb]
  | h1 l hl ih =>
    rw [chunk_cons hb hl]
    by_cases hlen : batch ≤ l.length
    · rw [List.filter_cons_of_pos (by simp; omega), List.flatten_cons, ih, List.length_drop]
      have e : l.length / batch * batch = batch + (l.length - batch) / batch * batch := by
        rw [Nat.div_eq_sub_div hb hlen]
        ring
      rw [e, List.take_add]
    · rw [List.filter_cons_of_neg (by simp; omega), ih, List.drop_eq_nil_of_le (by omega),
        Nat.div_eq_of_lt (show l.length < batch by omega)]
      simp

theorem filterMap_range {α} (l : List α) : (List.range l.length).filterMap (l[·]?) = l := by
  induction l using List.reverseRecOn with
  | nil => rfl
  | append_singleton l a ih =>
    rw [List.length_append, List.length_singleton, List.range_succ, List.filterMap_append]
    congr 1
    · conv_rhs => rw [← ih]
      apply List.filterMap_congr
      intro i hi
      exact List.getElem?_append_left (List.mem_range.1 hi)
    · simp

/-- **C71** (one epoch). An epoch visits the training samples in some order, in batches of exactly `batch_size`; the remaining
`n mod batch_size` samples of the order are left out. The state after the epoch is the result of one training step per batch. -/
theorem C71_epoch {TS} {E : MEnv TS} (hE : E.WF) {c : Config} (hc : 0 < c.batchSize) (ts : List Sample) (k : Nat) :
    ∃ (order : List Nat) (batches : List (List Sample)) (rest : List Sample), order.Perm (List.range ts.length) ∧
      batches.flatten ++ rest = order.filterMap (ts[·]?) ∧ (∀ b ∈ batches, b.length = c.batchSize) ∧
      rest.length = ts.length % c.batchSize ∧
      stateAfter E c ts (k + 1) =
        batches.foldl (fun s b => (E.step c s b).1) (E.shuffle (stateAfter E c ts k) ts.length).2 := by
  set order := (E.shuffle (stateAfter E c ts k) ts.length).1 with ho
  have hp : order.Perm (List.range ts.length) := hE.shuffle_perm _ _
  set l := order.filterMap (ts[·]?) with hl
  have hll : l.length = ts.length := by
    have h1 : l.Perm ((List.range ts.length).filterMap (ts[·]?)) := hp.filterMap _
    rw [h1.length_eq, filterMap_range]
  have hb := trainBatches_spec hc l
  refine ⟨order, (chunk c.batchSize l).filter fun b => b.length = c.batchSize, l.drop (l.length / c.batchSize * c.batchSize), hp, ?_,
    ?_, ?_, ?_⟩
  · rw [hb, List.take_append_drop]
  · intro b hb
    simpa using (List.mem_filter.1 hb).2
  · rw [List.length_drop, hll]
    have := Nat.div_add_mod ts.length c.batchSize
    rw [Nat.mul_comm] at this
    omega
  · show (trainEpoch E c ts (stateAfter E c ts k)).1 = _
    unfold trainEpoch
    dsimp only
    rw [trainEpoch_fst]
    rfl

/-- **C72** (no training). With fewer training samples than `batch_size` no epoch takes a training step: whatever the number of
epochs, the network keeps its initial weights, and `fit` reports nothing. -/
theorem C72_untrained_network {TS} {E : MEnv TS} (hE : E.WF) {c : Config} (hc : 0 < c.batchSize) {ts : List Sample}
    (h : ts.length < c.batchSize) (k : Nat) : netAfter E c ts k = E.weights c (E.initState c) := by
  induction k with
  | zero => rfl
  | succ k ih =>
    obtain ⟨order, batches, rest, hp, he, hb, hr, hs⟩ := C71_epoch hE hc ts k
    have hnil : batches = [] := by
      cases batches with
      | nil => rfl
      | cons b bs =>
        exfalso
        have h1 := congrArg List.length he
        rw [(hp.filterMap (ts[·]?)).length_eq, filterMap_range, List.length_append, List.flatten_cons, List.length_append,
          hb b (by simp)] at h1
        omega
    unfold netAfter at ih ⊢
    rw [hs, hnil, List.foldl_nil, hE.shuffle_weights, ih]

/-- **C72** (in a `fit`). A `fit` with fewer training samples than `batch_size` that restored the network of an epoch returns normally with
the initial weights as its model. -/
theorem C72_fit {TS} {E : MEnv TS} (hE : E.WF) {data : MData} {w w' : World} (h : Multi.fit E data w = (w', .ok ())) :
    ∃ f t c train val ts vs, data = .frame f ∧ Prepared E w.params f t c train val ts vs ∧
      (ts.length < c.batchSize → (∃ j < c.epochs.toNat, (epochLoss E c ts vs j).lt .pinf = true) →
        w'.det.model = some ⟨c, E.weights c (E.initState c)⟩) := by
  obtain ⟨f, t, c, train, val, ts, vs, hd, hp, hr⟩ := C58_best_epoch hE h
  refine ⟨f, t, c, train, val, ts, vs, hd, hp, fun hb ⟨j, hj, hl⟩ => ?_⟩
  rcases hr with ⟨i, -, -, hm, -⟩ | ⟨hall, -⟩
  · rw [hm, C72_untrained_network hE (show 0 < c.batchSize from (accepted_good hp.accepted).1.batch) hb]
  · rw [hall j hj] at hl
    cases hl

/-! ### concrete cases -/

/-- a loss that prefers a network forecasting 0.2 -/
def loss2 : Option Net → List Sample → PyFloat := fun net _ =>
  match net with
  | some N => .fin |N.fc3.bias.headD 0 - 1 / 5|
  | none => .nan

/-- four epochs, half of the rows for training and half for validation -/
def epochParams : Params := fun k =>
  if k = "epochs" then some (.int 4) else if k = "train_ratio" then some (.float (.fin (1 / 2)))
  else if k = "val_ratio" then some (.float (.fin (1 / 2))) else demoParams k

def demoEpochs : World := { demoStart with params := epochParams }

def heldBias (w : World) : Option (List ℚ) := w.det.model.bind fun m => m.net.map fun N => N.fc3.bias

/-- The network forecasts 0.1, 0.2, 0.3 and 0.4 after the four epochs; the loss prefers the second, and this is the network the detector holds. -/
example : ∃ w', Multi.fit (demoE loss2) (.frame demoTrain) demoEpochs = (w', .ok ()) ∧ heldBias w' = some [1 / 5, 1 / 5] := by
  obtain ⟨w', u, h, -⟩ := returned_ok (x := Multi.fit (demoE loss2) (.frame demoTrain)) (w := demoEpochs) (test := fun _ => true)
    (by decide +kernel)
  refine ⟨w', h, ?_⟩
  have : heldBias (Multi.fit (demoE loss2) (.frame demoTrain) demoEpochs).1 = some [1 / 5, 1 / 5] := by decide +kernel
  rwa [h] at this

/-- Prepared rows and samples of a run with a best epoch. -/
example : ∃ f t c train val ts vs i, Prepared (demoE loss2) demoEpochs.params f t c train val ts vs ∧
    IsBest (epochLoss (demoE loss2) c ts vs) c.epochs.toNat i := by
  obtain ⟨w', u, h, -⟩ := returned_ok (x := Multi.fit (demoE loss2) (.frame demoTrain)) (w := demoEpochs) (test := fun _ => true)
    (by decide +kernel)
  obtain ⟨f, t, c, train, val, ts, vs, hd, hp, hr⟩ := C58_best_epoch (demoE_wf _) h
  rcases hr with ⟨i, hi, -⟩ | ⟨-, k, hk, -⟩
  · exact ⟨f, t, c, train, val, ts, vs, i, hp, hi⟩
  · cases hk

/-- Inference samples of three rows of two variables. -/
example : ((inferSet ⟨2, 1, 2, 1, 1, 1, 1, 1, 1, "m", 1, 1, none, 2, 1, fun _ => none⟩ ([2, 4], [0, 0])
    [[1, 2], [2, 4], [0, 9]]).samples demoNum).isOk = true := by
  decide +kernel

theorem accepted_epochs {TS} {E : MEnv TS} {p : Params} {f : Frame} {t : Table} {c : Config} (h : Accepted E p f t c) (z : Int)
    (hz : p "epochs" = some (.int z)) : c.epochs = z := by
  obtain ⟨-, -, s, hs, h⟩ := h
  unfold Config.ofParams at h
  obtain ⟨kernel, h1, h⟩ := ebind_ok.1 h
  obtain ⟨gat, h2, h⟩ := ebind_ok.1 h
  obtain ⟨hidden, h3, h⟩ := ebind_ok.1 h
  obtain ⟨epochs, h4, h⟩ := ebind_ok.1 h
  obtain ⟨batch, h5, h⟩ := ebind_ok.1 h
  obtain ⟨interval, h6, h⟩ := ebind_ok.1 h
  obtain ⟨horizon, h7, h⟩ := ebind_ok.1 h
  obtain ⟨save, h8, h⟩ := ebind_ok.1 h
  obtain ⟨tr, h9, h⟩ := ebind_ok.1 h
  obtain ⟨vr, h10, h⟩ := ebind_ok.1 h
  obtain ⟨level, h11, h⟩ := ebind_ok.1 h
  rw [epure_ok] at h
  subst h
  unfold readInt at h4
  have : p.after s t.names.length "epochs" = some (.int z) := by
    rw [← hz]; rfl
  rw [this] at h4
  exact (Except.ok.inj h4).symm

/-- **C58** (no epochs). A `fit` with `epochs` at most 0 that returns trained nothing: the detector holds the configuration and the
network of the checkpoint that was in the save directory before the call. -/
theorem C58_no_epochs {TS} {E : MEnv TS} (hE : E.WF) {data : MData} {w w' : World} (h : Multi.fit E data w = (w', .ok ()))
    (z : Int) (hz : w.params "epochs" = some (.int z)) (h0 : z ≤ 0) :
    ∃ x k, w.disk x = .ckpt k ∧ w'.det.config = some k.config ∧ w'.det.model = some ⟨k.config, k.net⟩ := by
  obtain ⟨f, t, c, train, val, ts, vs, hd, hp, hr⟩ := C58_best_epoch hE h
  rcases hr with ⟨i, hi, -⟩ | ⟨-, k, hk⟩
  · have := hi.lt
    have e : c.epochs = z := accepted_epochs hp.accepted z hz
    omega
  · exact ⟨_, k, hk⟩

/-- a new detector beside the checkpoint of an earlier training; no epochs -/
def demoStale : World :=
  { demoStart with disk := demoTrained.disk, params := fun k => if k = "epochs" then some (.int 0) else demoParams k }

/-- The case occurs: with zero epochs `fit` returns and a new detector holds the network of an earlier training. -/
example : ∃ w', Multi.fit (demoE loss0) (.frame demoTrain) demoStale = (w', .ok ()) ∧ demoStale.det.model = none ∧
    w'.det.model ≠ none := by
  obtain ⟨w', u, h, -⟩ := returned_ok (x := Multi.fit (demoE loss0) (.frame demoTrain)) (w := demoStale) (test := fun _ => true)
    (by decide +kernel)
  obtain ⟨x, k, -, -, hm⟩ := C58_no_epochs (demoE_wf _) h 0 rfl (le_refl _)
  exact ⟨w', h, rfl, by rw [hm]; simp⟩

/-- Fewer samples than a batch: the default batch size 128 with eight training rows. -/
example : ∃ w', Multi.fit (demoE loss0) (.frame demoTrain)
    { demoStart with params := fun k => if k = "batch_size" then none else demoParams k } = (w', .ok ()) ∧
    heldBias w' = some [0, 0] := by
  obtain ⟨w', u, h, -⟩ := returned_ok (x := Multi.fit (demoE loss0) (.frame demoTrain))
    (w := { demoStart with params := fun k => if k = "batch_size" then none else demoParams k }) (test := fun _ => true)
    (by decide +kernel)
  refine ⟨w', h, ?_⟩
  have : heldBias (Multi.fit (demoE loss0) (.frame demoTrain)
    { demoStart with params := fun k => if k = "batch_size" then none else demoParams k }).1 = some [0, 0] := by decide +kernel
  rwa [h] at this

end Verif
