import Verif.Props.MultiFit

/-!
# Theorems: what calls depend on and what they leave behind
-/

namespace Verif

open Multi Spec

/-! ### the params dict -/

/-- the first part of a call neither reads nor writes the detector and the files -/
theorem processData_det {TS} (E : MEnv TS) (data : MData) (w : World) (d : Det) (k : String → File) :
    processData E data { w with det := d, disk := k } =
      ({ (processData E data w).1 with det := d, disk := k }, (processData E data w).2) := by
  cases data with
  | other => rfl
  | frame f =>
    simp only [processData, Bind.bind, MM.bind, MM.get, MM.of, MM.modifyParams, Pure.pure]
    cases windowSizes E (w.params "sliding_window") with
    | error e => rfl
    | ok sizes =>
      simp only
      cases lift (Processor.init E.toTableEnv ((w.params "fill_na_method").getD (.str "Linear"))
          ((w.params "fill_na_value").getD (.float (.fin 0)))) with
      | error e => rfl
      | ok P =>
        simp only
        cases f.ok with
        | false => rfl
        | true =>
          simp only [if_true]
          cases P.process E.toTableEnv (.frame f) with
          | error e => rfl
          | ok t =>
            simp only [MM.bind, MM.of, MM.modifyParams, MM.get]
            cases Config.ofParams _ t.names.length sizes.1 sizes.2 with
            | error e => rfl
            | ok c => rfl

theorem ensureModel_params (w : World) : (ensureModel w).1.params = w.params := by
  rcases ensureModel_cases w with ⟨w', h, hp, -⟩ | ⟨h, -⟩
  · rw [h]; exact hp
  · rw [h]

theorem loadCheckpoint_params (p : Option String) (q : Params) :
    MM.Holds (fun w => w.params = q) (loadCheckpoint p) fun _ => True := by
  unfold loadCheckpoint
  refine MM.Holds.get.bind fun w hw => ?_
  split
  · exact MM.Holds.throw
  · split
    · exact MM.Holds.throw
    · exact MM.Holds.throw
    · exact MM.Holds.modifyDet fun w hw => hw

theorem epochs_params {TS} (E : MEnv TS) (c : Config) (train val : List Sample) (q : Params) (n : Nat) :
    ∀ s, MM.Holds (fun w => w.params = q) (epochs E c train val n s) fun _ => True := by
  induction n with
  | zero => intro s; exact MM.Holds.pure.imp fun _ _ => trivial
  | succ n ih =>
    intro s
    unfold epochs
    refine MM.Holds.bind (Q := fun _ => True) ?_ fun s' _ => ih s'
    unfold epoch
    split
    · exact MM.Holds.throw
    · dsimp only
      split
      · exact MM.Holds.throw
      · split
        · refine (MM.Holds.modifyDet fun w hw => hw).bind fun _ _ => ?_
          refine MM.Holds.bind (Q := fun _ => True) ?_ fun _ _ => MM.Holds.pure.imp fun _ _ => trivial
          unfold saveCheckpoint
          refine MM.Holds.get.bind fun w0 hw0 => ?_
          intro w hw
          exact ⟨hw, fun _ _ => trivial⟩
        · exact MM.Holds.pure.imp fun _ _ => trivial

theorem mfit_params {TS} (E : MEnv TS) (data : MData) (w : World) :
    (Multi.fit E data w).1.params = (processData E data w).1.params := by
  unfold Multi.fit
  show (MM.bind (processData E data) _ w).1.params = _
  unfold MM.bind
  rcases processData E data w with ⟨w1, r⟩
  cases r with
  | error e => rfl
  | ok r =>
    obtain ⟨f, t, c⟩ := r
    dsimp only
    refine ((show MM.Holds (fun w' => w'.params = w1.params) _ (fun _ => True) from ?_) w1 rfl).1
    refine (MM.Holds.modifyDet fun w hw => hw).bind fun _ _ => ?_
    refine MM.Holds.of.bind fun pct _ => ?_
    refine (MM.Holds.modifyDet fun w hw => hw).bind fun _ _ => ?_
    split
    · exact MM.Holds.throw
    · refine (MM.Holds.modifyDet fun w hw => hw).bind fun _ _ => ?_
      refine MM.Holds.of.bind fun ts _ => ?_
      refine MM.Holds.of.bind fun vs _ => ?_
      split
      · exact MM.Holds.throw
      · refine (epochs_params _ _ _ _ _ _ _).bind fun _ _ => ?_
        refine (loadCheckpoint_params _ _).bind fun _ _ => ?_
        refine MM.Holds.get.bind fun w _ => ?_
        refine MM.Holds.of.bind fun r _ => ?_
        exact MM.Holds.modifyDet fun w hw => hw

theorem mpredict_params {TS} (E : MEnv TS) (data : MData) (w : World) :
    (Multi.predict E data w).1.params = (processData E data w).1.params := by
  unfold Multi.predict
  show (MM.bind (processData E data) _ w).1.params = _
  unfold MM.bind
  rcases processData E data w with ⟨w1, r⟩
  cases r with
  | error e => rfl
  | ok r =>
    obtain ⟨f, t, c⟩ := r
    dsimp only
    rcases ensureModel_cases w1 with ⟨w2, h2, hp2, -⟩ | ⟨h2, -⟩
    · rw [MM.run_bind h2, MM.run_bind (MM.get_ok.2 ⟨rfl, rfl⟩)]
      exact hp2
    · show (MM.bind ensureModel _ _).1.params = _
      unfold MM.bind
      rw [h2]

/-- **C60** (what a call leaves). After a usable request to `fit` or `predict`, whatever its outcome, the caller's params dict has lost
every key `MultiADConfig` does not have, among them `sliding_window`, `fill_na_method` and `fill_na_value`, and holds computed values
under `data_dim`, `input_size` and `threshold_window`. -/
theorem C60_consumed {TS} {E : MEnv TS} {w : World} {f : Frame} {t : Table} {c : Config} (ha : Accepted E w.params f t c) :
    ∃ sizes, windowSizes E (w.params "sliding_window") = .ok sizes ∧
      (Multi.fit E (.frame f) w).1.params = w.params.after sizes t.names.length ∧
      (Multi.predict E (.frame f) w).1.params = w.params.after sizes t.names.length := by
  obtain ⟨sizes, hrun⟩ := processData_run ha
  obtain ⟨-, -, -, -, -, s, hs, -, hp⟩ := processData_ok (show MM.Returns _ _ _ _ from hrun)
  refine ⟨s, hs, ?_, ?_⟩
  · rw [mfit_params, hrun]; exact hp
  · rw [mpredict_params, hrun]; exact hp

theorem after_lost (p : Params) (sizes : Nat × Nat) (dim : Nat) :
    p.after sizes dim "sliding_window" = none ∧ p.after sizes dim "fill_na_method" = none ∧
      p.after sizes dim "fill_na_value" = none := by
  refine ⟨?_, ?_, ?_⟩ <;>
  · unfold Params.after
    rw [if_neg (by decide), if_neg (by decide)]

/-- **C60** (the second call). A request that passes on a dict left by a usable earlier call is filled linearly, with 200 rows of input
and a threshold window of 200, whatever the dict said at the first call. -/
theorem C60_second_call {TS} {E : MEnv TS} {p : Params} {sizes : Nat × Nat} {dim : Nat} {f : Frame} {t : Table} {c : Config}
    (h : Accepted E (p.after sizes dim) f t c) :
    c.inputSize = 200 ∧ c.thresholdWindow = 200 ∧
      ∃ P, Processor.init E.toTableEnv (.str "Linear") (.float (.fin 0)) = .ok P ∧ P.process E.toTableEnv (.frame f) = .ok t := by
  obtain ⟨h1, h2, h3⟩ := after_lost p sizes dim
  obtain ⟨hok, ⟨P, hP, ht⟩, s, hs, hc⟩ := h
  rw [h1] at hs
  rw [h2, h3] at hP
  have e : s = (200, 200) := by
    have : windowSizes E none = .ok (200, 200) := rfl
    rw [this] at hs
    cases hs
    rfl
  subst e
  have := ofParams_good (processed_dims hok ht) (by simp) hc
  exact ⟨this.2.2.1, this.2.2.2.1, P, hP, ht⟩

/-- **C60** (refuted). There is a params dict and a table for which `fit` succeeds, and a second `fit` with the same dict and table
raises `ValueError`. -/
theorem C60_not_reusable : ∃ (E : MEnv Nat) (w : World) (f : Frame), E.WF ∧ Reachable E w ∧
    (Multi.fit E (.frame f) w).2 = .ok () ∧
    (Multi.fit E (.frame f) { w with params := (Multi.fit E (.frame f) w).1.params }).2 = .error (.err .valueError) := by
  refine ⟨demoE loss0, demoStart, demoTrain, demoE_wf _, demoStart_reachable _, ?_, ?_⟩
  · exact returned_unit (by decide +kernel)
  · exact raised_eq (by decide +kernel)

/-! ### batch size -/

theorem weightRow_lengths {row row' pct : List ℚ} (hr : row.length = row'.length) (h : ∃ y, weightRow row pct = .ok y) :
    ∃ y, weightRow row' pct = .ok y := by
  obtain ⟨y, h⟩ := h
  unfold weightRow at h ⊢
  by_cases he : row.length = pct.length
  · rw [if_pos (by omega)]; exact ⟨_, rfl⟩
  · rw [if_neg he] at h
    rw [if_neg (by omega)]
    split at h
    · exact ⟨_, rfl⟩
    · obtain ⟨x, rfl⟩ := List.length_eq_one_iff.1 (show row'.length = 1 by simpa using hr.symm)
      split
      · exact ⟨_, rfl⟩
      · exact ⟨_, rfl⟩
      · rename_i h2 h3
        exact absurd rfl (h2 x)
    · cases h

theorem weightRow_error {row pct : List ℚ} (h : ¬ ∃ y, weightRow row pct = .ok y) : weightRow row pct = .error .valueError := by
  unfold weightRow at h ⊢
  by_cases he : row.length = pct.length
  · rw [if_pos he] at h; exact absurd ⟨_, rfl⟩ h
  · rw [if_neg he] at h ⊢
    split at h
    · exact absurd ⟨_, rfl⟩ h
    · exact absurd ⟨_, rfl⟩ h
    · rfl

theorem mapM_first_error {α β ε} {g : α → Except ε β} {a : α} {l : List α} {e : ε} (h : g a = .error e) :
    (a :: l).mapM g = .error e := by
  rw [List.mapM_cons, h]; rfl

theorem foldlM_first_error {α β ε} {g : β → α → Except ε β} {a : α} {l : List α} {b : β} {e : ε} (h : g b a = .error e) :
    (a :: l).foldlM g b = .error e := by
  rw [List.foldlM_cons, h]; rfl

/-- samples of equal shape: the batch size does not matter, errors included -/
theorem inferFold_batch {E : NumEnv} {c : Config} {N : Net} {pct : List ℚ} (hd : 0 < c.dataDim) (hg : 0 < c.gatWindow)
    {samples : List Sample} (hF : ∀ s ∈ samples, ∀ s' ∈ samples, Fits c s.input → Fits c s'.input)
    (hR : ∀ s ∈ samples, ∀ s' ∈ samples, (rawRow E c N s).length = (rawRow E c N s').length) {n n' : Nat} (hn : 0 < n)
    (hn' : 0 < n') (o : InferOut) :
    (chunk n samples).foldlM (inferBatch E c N pct) o = (chunk n' samples).foldlM (inferBatch E c N pct) o := by
  cases samples with
  | nil => rw [chunk_nil hn, chunk_nil hn']
  | cons s ss =>
    have hcons : ∀ k, 0 < k → ∃ r, (s :: ss).take k = s :: r ∧ ∀ x ∈ r, x ∈ ss := by
      intro k hk
      obtain ⟨k, rfl⟩ := Nat.exists_eq_succ_of_ne_zero hk.ne'
      exact ⟨ss.take k, rfl, fun x hx => List.mem_of_mem_take hx⟩
    by_cases hfit : Fits c s.input
    · have hall : ∀ s' ∈ s :: ss, Fits c s'.input := fun s' hs' => hF s (by simp) s' hs' hfit
      by_cases hw : ∃ y, weightRow (rawRow E c N s) pct = .ok y
      · have hex : ∃ w, ((s :: ss).map (rawRow E c N)).mapM (fun r => weightRow r pct) = .ok w := by
          have h1 : ∀ s' ∈ s :: ss, ∃ y, weightRow (rawRow E c N s') pct = .ok y :=
            fun s' hs' => weightRow_lengths (hR s (by simp) s' hs') hw
          generalize s :: ss = l at h1
          clear hF hR hcons hall
          induction l with
          | nil => exact ⟨[], rfl⟩
          | cons a l ih =>
            obtain ⟨y, hy⟩ := h1 a (by simp)
            obtain ⟨w, hw⟩ := ih fun s' hs' => h1 s' (by simp [hs'])
            refine ⟨y :: w, ?_⟩
            rw [List.map_cons, List.mapM_cons, hy]
            simp only [Bind.bind, Except.bind] at hw ⊢
            rw [hw]
            rfl
        obtain ⟨w, hw⟩ := hex
        rw [(inferFold_ok hd hg hn _ o _).2 ⟨hall, w, hw, rfl⟩, (inferFold_ok hd hg hn' _ o _).2 ⟨hall, w, hw, rfl⟩]
      · have herr : ∀ k, 0 < k → (chunk k (s :: ss)).foldlM (inferBatch E c N pct) o = .error .valueError := by
          intro k hk
          obtain ⟨r, hr, hrs⟩ := hcons k hk
          rw [chunk_cons hk (by simp), hr]
          apply foldlM_first_error
          have hout : forward E c N ((s :: r).map (·.input)) = .ok (((s :: r).map (·.input)).map (sampleOut E c N)) :=
            (forward_ok_iff hd hg).2 ⟨fun x hx => by
              obtain ⟨s', hs', rfl⟩ := List.mem_map.1 hx
              rcases List.mem_cons.1 hs' with rfl | h
              · exact hfit
              · exact hall s' (by simp [hrs s' h]), rfl⟩
          unfold inferBatch
          rw [hout]
          simp only [Bind.bind, Except.bind, List.map_cons, List.zipWith_cons_cons]
          have he := weightRow_error hw
          unfold rawRow at he
          rw [mapM_first_error (g := fun r => weightRow r pct) he]
        rw [herr n hn, herr n' hn']
    · have herr : ∀ k, 0 < k → (chunk k (s :: ss)).foldlM (inferBatch E c N pct) o = .error .runtimeError := by
        intro k hk
        obtain ⟨r, hr, -⟩ := hcons k hk
        rw [chunk_cons hk (by simp), hr]
        apply foldlM_first_error
        unfold inferBatch
        rw [forward_error (by
          intro h
          exact hfit (h _ (by simp)))]
        rfl
      rw [herr n hn, herr n' hn']

theorem inference_batch {TS} {E : MEnv TS} {d : Det} (hd : d.Good) {c : Config} (hc : d.config = some c) {n : Nat} (hn : 0 < n)
    {rows : List (List ℚ)} {k : Nat} (hr : ∀ r ∈ rows, r.length = k) :
    inference E { d with config := some { c with batchSize := n } } rows = inference E d rows := by
  have hcg := hd.config c hc
  unfold inference
  simp only [hc]
  cases hb : c.base with
  | none => rfl
  | some base =>
    simp only
    cases hm : d.model with
    | none => rfl
    | some m =>
      obtain ⟨m, net⟩ := m
      cases net with
      | none => rfl
      | some N =>
        simp only
        cases hp : d.pct with
        | none => rfl
        | some pct =>
          simp only
          have hset : inferSet { c with batchSize := n, base := some base } base rows = inferSet c base rows := rfl
          rw [hset]
          cases hs : (inferSet c base rows).samples E.toNumEnv with
          | error e => rfl
          | ok ss =>
            obtain ⟨hbl1, hbl2⟩ := hcg.base base hb
            have hsam := inferSamples_ok (by omega) hr hs
            obtain ⟨hmg, hN⟩ := hd.model _ hm
            simp only [Bind.bind, Except.bind]
            congr 1
            refine inferFold_batch hmg.dim hmg.gat ?_ ?_ hn hcg.batch _
            · intro s hs1 s' hs2 hf
              obtain ⟨i, hi, rfl⟩ := List.mem_iff_getElem.1 hs1
              obtain ⟨j, hj, rfl⟩ := List.mem_iff_getElem.1 hs2
              have h1 := hsam.2 i hi
              have h2 := hsam.2 j hj
              refine ⟨by rw [h2.len, ← h1.len]; exact hf.1, fun r hr => ?_⟩
              have hne : ss[i].input ≠ [] := by
                intro e
                have := hf.1
                rw [e] at this
                have := hmg.kernel
                simp at *
                omega
              obtain ⟨x, hx⟩ := List.exists_mem_of_ne_nil _ hne
              rw [h2.width r hr, ← h1.width x hx]
              exact hf.2 x hx
            · intro s hs1 s' hs2
              obtain ⟨i, hi, rfl⟩ := List.mem_iff_getElem.1 hs1
              obtain ⟨j, hj, rfl⟩ := List.mem_iff_getElem.1 hs2
              unfold rawRow
              rw [List.length_zipWith, List.length_zipWith, (hsam.2 i hi).twidth, (hsam.2 j hj).twidth]
              rw [pred_length hN, pred_length hN]

/-- **C57**. The `batch_size` a detector with a network is configured with does not influence `predict`: for every table and every
positive batch size the outcome, result or exception, is the same. -/
theorem C57_batch_size {TS} {E : MEnv TS} (hE : E.WF) {w : World} (hw : Reachable E w) {c : Config} (hc : w.det.config = some c)
    {m : NetObj} (hm : w.det.model = some m) {n : Nat} (hn : 0 < n) (data : MData) :
    (Multi.predict E data { w with det := { w.det with config := some { c with batchSize := n } } }).2 =
      (Multi.predict E data w).2 := by
  unfold Multi.predict
  have hpd := processData_det E data w { w.det with config := some { c with batchSize := n } } w.disk
  show (MM.bind (processData E data) _ _).2 = (MM.bind (processData E data) _ _).2
  unfold MM.bind
  rw [hpd]
  have hp := processData_det E data w w.det w.disk
  rcases hr : processData E data w with ⟨w1, r⟩
  rw [hr] at hp
  cases r with
  | error e => rfl
  | ok r =>
    obtain ⟨f, t, c1⟩ := r
    have hd1 : w1.det = w.det := by
      have := congrArg (·.1.det) hp
      simpa [hr] using this
    dsimp only
    have e1 : ∀ w2 : World, w2.det.model = some m → (ensureModel >>= fun _ => MM.get >>= fun w => MM.of (detectWith E w.det f t)) w2 =
        (w2, detectWith E w2.det f t) := by
      intro w2 h2
      have : ensureModel w2 = (w2, .ok ()) := by
        unfold ensureModel
        rw [h2]
      rw [MM.run_bind this, MM.run_bind (MM.get_ok.2 ⟨rfl, rfl⟩)]
      rfl
    rw [e1 _ (by simpa using hm), e1 _ (by rw [hd1]; exact hm)]
    dsimp only
    rw [hd1]
    unfold detectWith
    simp only [hc]
    rw [inference_batch (hw.good hE).det hc hn (rows_width t)]

/-! ### the params of a prediction -/

/-- **C70**. Of the params of a usable `predict` request only `fill_na_method` and `fill_na_value` matter: two usable requests with the
same table, detector and files that agree in these have the same outcome. -/
theorem C70_predict_params {TS} {E : MEnv TS} {w : World} {p p' : Params} {f : Frame} {t t' : Table} {c c' : Config}
    (ha : Accepted E p f t c) (hb : Accepted E p' f t' c') (h1 : p "fill_na_method" = p' "fill_na_method")
    (h2 : p "fill_na_value" = p' "fill_na_value") :
    (Multi.predict E (.frame f) { w with params := p }).2 = (Multi.predict E (.frame f) { w with params := p' }).2 := by
  have ht : t = t' := by
    have := hb.filled
    unfold Filled at this
    rw [← h1, ← h2] at this
    exact filled_unique ha.filled this
  subst ht
  obtain ⟨s, hs⟩ := processData_run (w := { w with params := p }) ha
  obtain ⟨s', hs'⟩ := processData_run (w := { w with params := p' }) hb
  unfold Multi.predict
  rw [MM.run_bind hs, MM.run_bind hs']
  dsimp only
  rcases ensureModel_cases { w with params := p.after s t.names.length } with ⟨w2, h2, -, hc⟩ | ⟨h2, hm, hd⟩
  · rcases ensureModel_cases { w with params := p'.after s' t.names.length } with ⟨w3, h3, -, hc'⟩ | ⟨h3, hm', hd'⟩
    · rw [MM.run_bind h2, MM.run_bind h3, MM.run_bind (MM.get_ok.2 ⟨rfl, rfl⟩), MM.run_bind (MM.get_ok.2 ⟨rfl, rfl⟩)]
      have hdet : w2.det = w3.det := by
        rcases hc with ⟨m, hm, rfl⟩ | ⟨hm, q, k, hq, hk, rfl⟩
        · rcases hc' with ⟨m', -, rfl⟩ | ⟨hm', -⟩
          · rfl
          · dsimp only at hm hm'; rw [hm'] at hm; cases hm
        · rcases hc' with ⟨m', hm', rfl⟩ | ⟨-, q', k', hq', hk', rfl⟩
          · dsimp only at hm hm'; rw [hm'] at hm; cases hm
          · dsimp only at hq hq' hk hk' ⊢
            rw [hq] at hq'; cases hq'
            rw [hk] at hk'; cases hk'
            rfl
      show detectWith E w2.det f t = detectWith E w3.det f t
      rw [hdet]
    · exfalso
      rcases hc with ⟨m, hm, rfl⟩ | ⟨-, q, k, hq, hk, rfl⟩
      · dsimp only at hm hm'; rw [hm'] at hm; cases hm
      · exact hd' q k hq hk
  · rcases ensureModel_cases { w with params := p'.after s' t.names.length } with ⟨w3, h3, -, hc'⟩ | ⟨h3, hm', hd'⟩
    · exfalso
      rcases hc' with ⟨m, hm', rfl⟩ | ⟨-, q, k, hq, hk, rfl⟩
      · dsimp only at hm hm'; rw [hm'] at hm; cases hm
      · exact hd q k hq hk
    · show (MM.bind ensureModel _ _).2 = (MM.bind ensureModel _ _).2
      unfold MM.bind
      rw [h2, h3]

/-! ### checkpoints -/

/-- **C69** (what is saved). A checkpoint that `fit` writes holds the threshold the detector had before the call, not the one `fit`
computes. -/
theorem C69_saved_threshold {TS} {E : MEnv TS} {data : MData} {w w' : World} (h : Multi.fit E data w = (w', .ok ())) (x : String)
    (k : Ckpt) (hk : w'.disk x = .ckpt k) (hn : w.disk x ≠ .ckpt k) : k.threshold = w.det.threshold := by
  obtain ⟨f, t, c, hd, ⟨R⟩⟩ := fit_ok h
  rcases R.outcome.1.restored with ⟨i, -, -, -, -, h4, h5⟩ | ⟨-, h2, -⟩
  · by_cases hx : x = E.joinPath c.save
    · subst hx
      rw [hk] at h4
      cases h4
      rfl
    · rw [h5 x hx] at hk
      exact absurd hk hn
  · rw [h2] at hk
    exact absurd hk hn

/-- **C69** (defect: intended property refuted). A checkpoint written by the first `fit` of a detector cannot be used: a new detector that
loads it never returns a prediction, whatever the table and the params. -/
theorem C69_unusable {TS} {E : MEnv TS} (hE : E.WF) {data : MData} {w w' : World} (hw : Reachable E w) (hth : w.det.threshold = none)
    (h : Multi.fit E data w = (w', .ok ())) (x : String) (k : Ckpt) (hk : w'.disk x = .ckpt k) (hn : w.disk x ≠ .ckpt k)
    (p : Params) :
    ∃ w1, loadCheckpoint (some x) { w' with det := {}, params := p } = (w1, .ok ()) ∧
      ∀ data' w2 items, Multi.predict E data' w1 ≠ (w2, .ok items) := by
  have hkt := C69_saved_threshold h x k hk hn
  rw [hth] at hkt
  have hr : Reachable E w' := by
    have := Reachable.fit data hw
    rwa [h] at this
  have hr1 : Reachable E { w' with det := {}, params := p } := Reachable.params p (Reachable.new hr)
  have hl : loadCheckpoint (some x) { w' with det := {}, params := p } =
      ({ w' with det := restored {} k, params := p }, .ok ()) := by
    unfold loadCheckpoint
    rw [MM.run_bind (MM.get_ok.2 ⟨rfl, rfl⟩)]
    dsimp only
    rw [hk]
    rfl
  refine ⟨_, hl, fun data' w2 items => ?_⟩
  have hr2 := Reachable.load (some x) hr1
  rw [hl] at hr2
  exact C61_no_threshold hE hr2 (m := ⟨k.config, k.net⟩) rfl hkt w2 items

/-! ### concrete cases -/

/-- The first `fit` of a detector that writes a checkpoint. -/
example : ∃ w' k, Reachable (demoE loss0) demoStart ∧ demoStart.det.threshold = none ∧
    Multi.fit (demoE loss0) (.frame demoTrain) demoStart = (w', .ok ()) ∧
    w'.disk "model/best_multi_ad_model.pt" = .ckpt k ∧ demoStart.disk "model/best_multi_ad_model.pt" ≠ .ckpt k := by
  obtain ⟨w', u, h, -⟩ := returned_ok (x := Multi.fit (demoE loss0) (.frame demoTrain)) (w := demoStart) (test := fun _ => true)
    (by decide +kernel)
  have hk : (match (Multi.fit (demoE loss0) (.frame demoTrain) demoStart).1.disk "model/best_multi_ad_model.pt" with
    | .ckpt _ => true
    | _ => false) = true := by decide +kernel
  rw [h] at hk
  dsimp only at hk
  split at hk
  · rename_i k hk'
    exact ⟨w', k, demoStart_reachable _, rfl, h, hk', fun e => by cases e⟩
  · cases hk

/-- A dict used for training is usable for a second request on a table with enough rows. -/
example : ∃ t c, Accepted (demoE loss0) (demoParams.after (2, 2) 2) demoTest t c :=
  accepted_demo (w := { demoStart with params := demoParams.after (2, 2) 2 }) (by decide +kernel)

/-- Two usable requests with different params that agree in the fill method. -/
example : (∃ t c, Accepted (demoE loss0) demoParams demoTest t c) ∧ ∃ t c, Accepted (demoE loss0) (fun _ => none) demoTest t c :=
  ⟨accepted_demo (w := demoStart) (by decide +kernel), accepted_demo (w := { demoStart with params := fun _ => none }) (by decide +kernel)⟩

/-- A trained detector with configuration and network. -/
example : Reachable (demoE loss0) demoTrained ∧ (∃ c, demoTrained.det.config = some c) ∧ ∃ m, demoTrained.det.model = some m :=
  ⟨demoTrained_reachable, Option.isSome_iff_exists.1 (by decide +kernel), Option.isSome_iff_exists.1 (by decide +kernel)⟩

end Verif
