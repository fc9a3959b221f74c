import Verif.Props.MultiLevel
import Verif.Props.MultiOutcome

/-!
# C128: `horizon` moves the targets of training only

Training compares the forecast of a window with the row `horizon` places behind it. Validation, the trained threshold and predictions compare it with the next row,
whatever `horizon` is.
-/

namespace Verif

open Multi Spec

namespace Spec

/-- a configuration without what only training uses: `horizon`, `interval`, `epochs`, the ratios, `level`, `save` and the entries kept for training -/
def untrained (c : Config) : Config :=
  { c with horizon := 1, interval := 1, epochs := 0, trainRatio := 0, valRatio := 0, level := 0, save := "", extra := fun _ => none }

/-- checkpoints with the same contents, except for what only training uses -/
structure SameKept (k k' : Ckpt) : Prop where
  net : k.net = k'.net
  config : untrained k.config = untrained k'.config
  pct : k.pct = k'.pct
  threshold : k.threshold = k'.threshold

/-- files with the same contents, except for what only training uses -/
inductive SameFile : File → File → Prop where
  | missing : SameFile .missing .missing
  | garbage : SameFile .garbage .garbage
  | ckpt {k k'} (h : SameKept k k') : SameFile (.ckpt k) (.ckpt k')

/-- the same calls without `fit`, on files that may differ in what only training uses -/
inductive SameUse : Call → Call → Prop where
  | params (p) : SameUse (.params p) (.params p)
  | predict (data) : SameUse (.predict data) (.predict data)
  | load (path) : SameUse (.load path) (.load path)
  | path (s) : SameUse (.path s) (.path s)
  | file (s) {f f'} (h : SameFile f f') : SameUse (.file s f) (.file s f')
  | new : SameUse .new .new

end Spec

/-- related detectors -/
structure UseD (d d' : Det) : Prop where
  config : Option.Rel (fun c c' => untrained c = untrained c') d.config d'.config
  model : Option.Rel (fun m m' : NetObj => untrained m.config = untrained m'.config ∧ m.net = m'.net) d.model d'.model
  pct : d.pct = d'.pct
  threshold : d.threshold = d'.threshold
  modelPath : d.modelPath = d'.modelPath

structure UseW (w v : World) : Prop where
  det : UseD w.det v.det
  disk : ∀ x, SameFile (w.disk x) (v.disk x)
  params : w.params = v.params

theorem UseD.refl (d : Det) : UseD d d := ⟨rel_refl (R := fun c c' => untrained c = untrained c') (fun _ => rfl) _, rel_refl (fun _ => ⟨rfl, rfl⟩) _, rfl, rfl, rfl⟩

theorem Spec.SameFile.refl (f : File) : SameFile f f := by
  cases f with
  | missing => exact .missing
  | garbage => exact .garbage
  | ckpt k => exact .ckpt ⟨rfl, rfl, rfl, rfl⟩

theorem UseW.refl (w : World) : UseW w w := ⟨.refl _, fun _ => .refl _, rfl⟩

theorem inference_use {TS} (E : MEnv TS) {d d' : Det} (h : UseD d d') (values : List (List ℚ)) : inference E d values = inference E d' values := by
  obtain ⟨c, m, p, t, s1, s2, mp, v⟩ := d
  obtain ⟨c', m', p', t', s1', s2', mp', v'⟩ := d'
  obtain ⟨hc, hm, rfl, -, -⟩ := h
  dsimp only at hc hm
  unfold inference
  dsimp only
  cases hc with
  | none => rfl
  | some hc =>
    rename_i c c'
    have e1 : c.base = c'.base := congrArg (·.base) hc
    have e2 : c.inputSize = c'.inputSize := congrArg (·.inputSize) hc
    have e3 : c.batchSize = c'.batchSize := congrArg (·.batchSize) hc
    dsimp only
    rw [e1]
    cases c'.base with
    | none => rfl
    | some base =>
      dsimp only
      have e4 : inferSet c base values = inferSet c' base values := by
        unfold inferSet
        rw [e2]
      rw [e3, e4]
      cases hm with
      | none => rfl
      | some hm =>
        rename_i m m'
        obtain ⟨mc, n⟩ := m
        obtain ⟨mc', n'⟩ := m'
        obtain ⟨hmc, hn⟩ := hm
        dsimp only at hmc hn
        subst hn
        cases n with
        | none => rfl
        | some N =>
          cases p with
          | none => rfl
          | some pct =>
            dsimp only
            have : inferBatch E.toNumEnv mc N pct = inferBatch E.toNumEnv mc' N pct := by
              show inferBatch E.toNumEnv (untrained mc) N pct = inferBatch E.toNumEnv (untrained mc') N pct
              rw [hmc]
            rw [this]

theorem detectWith_use {TS} (E : MEnv TS) {d d' : Det} (h : UseD d d') (f : Frame) (t : Table) : detectWith E d f t = detectWith E d' f t := by
  unfold detectWith
  simp only [inference_use E h]
  have hc := h.config
  rw [h.threshold]
  revert hc
  generalize d.config = c, d'.config = c'
  intro hc
  cases hc with
  | none => rfl
  | some hc =>
    rename_i c c'
    dsimp only
    rw [show c.thresholdWindow = c'.thresholdWindow from congrArg (·.thresholdWindow) hc, show c.inputSize = c'.inputSize from congrArg (·.inputSize) hc]

theorem loadCheckpoint_use (path : Option String) {w v : World} (h : UseW w v) :
    UseW (loadCheckpoint path w).1 (loadCheckpoint path v).1 ∧ (loadCheckpoint path w).2 = (loadCheckpoint path v).2 := by
  have hl : ∀ u : World, loadCheckpoint path u = (match path with
    | none => MM.throw .attributeError
    | some p => match u.disk p with
      | .missing => MM.throw .fileNotFound
      | .garbage => MM.throw .exception
      | .ckpt k => MM.modifyDet fun d =>
        { d with config := some k.config, model := some ⟨k.config, k.net⟩, pct := k.pct, threshold := k.threshold,
                 scoreMax := k.scoreMax, scoreMin := k.scoreMin } : MM Unit) u := fun _ => rfl
  rw [hl, hl]
  cases path with
  | none => exact ⟨h, rfl⟩
  | some p =>
    dsimp only
    have hf := h.disk p
    revert hf
    generalize w.disk p = f, v.disk p = f'
    intro hf
    cases hf with
    | missing => exact ⟨h, rfl⟩
    | garbage => exact ⟨h, rfl⟩
    | ckpt hk => exact ⟨⟨⟨.some hk.config, .some ⟨hk.config, hk.net⟩, hk.pct, hk.threshold, h.det.modelPath⟩, h.disk, h.params⟩, rfl⟩

theorem ensureModel_use {w v : World} (h : UseW w v) : UseW (ensureModel w).1 (ensureModel v).1 ∧ (ensureModel w).2 = (ensureModel v).2 := by
  have hl := loadCheckpoint_use w.det.modelPath h
  unfold ensureModel
  rw [← h.det.modelPath]
  revert hl
  generalize loadCheckpoint w.det.modelPath w = x, loadCheckpoint w.det.modelPath v = y
  intro hl
  have hm := h.det.model
  revert hm
  generalize w.det.model = m, v.det.model = m'
  intro hm
  cases hm with
  | some _ => exact ⟨h, rfl⟩
  | none =>
    obtain ⟨w1, r⟩ := x
    obtain ⟨v1, s⟩ := y
    obtain ⟨hu, he⟩ := hl
    dsimp only at hu he ⊢
    subst he
    cases r with
    | error e => exact ⟨hu, rfl⟩
    | ok a => exact ⟨hu, rfl⟩

theorem predict_use {TS} (E : MEnv TS) (data : MData) {w v : World} (h : UseW w v) :
    UseW (Multi.predict E data w).1 (Multi.predict E data v).1 ∧ (Multi.predict E data w).2 = (Multi.predict E data v).2 := by
  have hp : ∀ u : World, Multi.predict E data u = match processData E data u with
      | (u', .error e) => (u', .error e)
      | (u', .ok r) => match ensureModel u' with
        | (u2, .error e) => (u2, .error e)
        | (u2, .ok _) => (u2, detectWith E u2.det r.1 r.2.1) := by
    intro u
    show MM.bind (processData E data) _ u = _
    unfold MM.bind
    rcases processData E data u with ⟨u', r⟩
    cases r with
    | error e => rfl
    | ok r =>
      show MM.bind ensureModel _ u' = _
      unfold MM.bind
      dsimp only
      rcases ensureModel u' with ⟨u2, r2⟩
      cases r2 <;> rfl
  have hv := processData_det E data w v.det v.disk
  rw [show ({ w with det := v.det, disk := v.disk } : World) = v by rw [h.params]] at hv
  have hw := processData_det E data w w.det w.disk
  rw [show ({ w with det := w.det, disk := w.disk } : World) = w from rfl] at hw
  have hr : UseW (processData E data w).1 (processData E data v).1 := by
    rw [hv, hw]
    exact ⟨h.det, h.disk, rfl⟩
  have he : (processData E data w).2 = (processData E data v).2 := by rw [hv]
  rw [hp, hp]
  revert hr he
  generalize processData E data w = x, processData E data v = y
  intro hr he
  obtain ⟨w1, r⟩ := x
  obtain ⟨v1, s⟩ := y
  dsimp only at hr he
  subst he
  cases r with
  | error e => exact ⟨hr, rfl⟩
  | ok r =>
    dsimp only
    obtain ⟨h1, h2⟩ := ensureModel_use hr
    revert h1 h2
    generalize ensureModel w1 = x, ensureModel v1 = y
    intro h1 h2
    obtain ⟨w2, r2⟩ := x
    obtain ⟨v2, s2⟩ := y
    dsimp only at h1 h2
    subst h2
    cases r2 with
    | error e => exact ⟨h1, rfl⟩
    | ok a => exact ⟨h1, detectWith_use E h1.det _ _⟩

theorem call_use {TS} (E : MEnv TS) {w v : World} (h : UseW w v) {c c' : Call} (hc : SameUse c c') :
    UseW (doCall E w c).1 (doCall E v c').1 ∧ (doCall E w c).2 = (doCall E v c').2 := by
  cases hc with
  | params p => exact ⟨⟨h.det, h.disk, rfl⟩, rfl⟩
  | predict data => exact predict_use E data h
  | load path =>
    obtain ⟨h1, h2⟩ := loadCheckpoint_use path h
    exact ⟨h1, by dsimp only [doCall]; rw [h2]⟩
  | path s => exact ⟨⟨⟨h.det.config, h.det.model, h.det.pct, h.det.threshold, rfl⟩, h.disk, h.params⟩, rfl⟩
  | file s hf =>
    rename_i f f'
    refine ⟨⟨h.det, fun x => ?_, h.params⟩, rfl⟩
    show SameFile (if x = s then f else w.disk x) (if x = s then f' else v.disk x)
    split
    · exact hf
    · exact h.disk x
  | new => exact ⟨⟨.refl _, h.disk, h.params⟩, rfl⟩

/-- **C128**. A program that uses trained models (any sequence of `predict`, loading of checkpoints, new detectors, replaced files, changes of the params dict) has the
same outcomes if the checkpoints it uses are replaced by ones with the same network, sizes, range, variable weights and threshold but another `horizon`, or
another `interval`, `epochs`, `train_ratio`, `val_ratio`, `level`, `save` or other training parameters. -/
theorem C128_horizon {TS} (E : MEnv TS) (w : World) {cs cs' : List Call} (h : List.Forall₂ SameUse cs cs') : outcomes E w cs = outcomes E w cs' := by
  have key : ∀ {w v : World}, UseW w v → outcomes E w cs = outcomes E v cs' := by
    induction h with
    | nil => exact fun _ => rfl
    | cons hc _ ih =>
      intro w v hu
      obtain ⟨h1, h2⟩ := call_use E hu hc
      unfold outcomes
      rw [h2, ih h1]
  exact key (.refl w)

/-! ### training -/

namespace Spec

/-- the horizon a dict asks for: the entry, which is a positive integer, or 1 -/
def HorizonOf (p : Params) (k : Nat) : Prop :=
  (p "horizon" = none ∧ k = 1) ∨ ∃ v, p "horizon" = some v ∧ v.asInt? = some (k : Int) ∧ 1 ≤ k

end Spec

theorem accepted_horizon {TS} {E : MEnv TS} {p : Params} {f : Frame} {t : Table} {c : Config} (h : Accepted E p f t c) {k : Nat}
    (hk : HorizonOf p k) : c.horizon = k := by
  obtain ⟨-, -, s, hs, h⟩ := h
  unfold Config.ofParams at h
  obtain ⟨kernel, h1, h⟩ := ebind_ok.1 h
  obtain ⟨gat, h2, h⟩ := ebind_ok.1 h
  obtain ⟨hidden, h3, h⟩ := ebind_ok.1 h
  obtain ⟨epochs, h4, h⟩ := ebind_ok.1 h
  obtain ⟨batch, h5, h⟩ := ebind_ok.1 h
  obtain ⟨interval, h6, h⟩ := ebind_ok.1 h
  obtain ⟨horizon, h7, h⟩ := ebind_ok.1 h
  obtain ⟨save, h8, h⟩ := ebind_ok.1 h
  obtain ⟨tr, h9, h⟩ := ebind_ok.1 h
  obtain ⟨vr, h10, h⟩ := ebind_ok.1 h
  obtain ⟨level, h11, h⟩ := ebind_ok.1 h
  rw [epure_ok] at h
  subst h
  unfold readNat at h7
  rw [show p.after s t.names.length "horizon" = p "horizon" from rfl] at h7
  rcases hk with ⟨hk, rfl⟩ | ⟨v, hv, hi, h1⟩
  · rw [hk] at h7
    exact (Except.ok.inj h7).symm
  · rw [hv] at h7
    dsimp only at h7
    rw [hi] at h7
    dsimp only at h7
    rw [if_pos (by exact_mod_cast h1)] at h7
    exact (Except.ok.inj h7).symm

/-- **C128** (defect: intended property refuted). In a `fit` with horizon `k` that returns, the training sample `j` is the window of `input_size` rows from row
`j·interval` on with the row `k` places behind its last row as target; the validation sample `j` is the window from row `j` on with the next row as target; and if some
epoch had a loss below infinity, the threshold is an order statistic of scores that compare the forecast of a window with the next row. -/
theorem C128_targets {TS} {E : MEnv TS} (hE : E.WF) {data : MData} {w w' : World} (hw : Reachable E w) (h : Multi.fit E data w = (w', .ok ()))
    {k : Nat} (hk : HorizonOf w.params k) :
    ∃ f t c train val ts vs maxs mins, data = .frame f ∧ Prepared E w.params f t c train val ts vs ∧
      (∀ j, ∀ hj : j < ts.length,
        ts[j].input = (List.range c.inputSize).map (fun i => normRowAt E.toNumEnv 0 1 c.dataDim mins maxs train (j * c.interval + i)) ∧
        ts[j].target = normRowAt E.toNumEnv 0 1 c.dataDim mins maxs train (j * c.interval + c.inputSize + k - 1)) ∧
      (∀ j, ∀ hj : j < vs.length,
        vs[j].input = (List.range c.inputSize).map (fun i => normRowAt E.toNumEnv (-1000) 1000 c.dataDim mins maxs val (j + i)) ∧
        vs[j].target = normRowAt E.toNumEnv (-1000) 1000 c.dataDim mins maxs val (j + c.inputSize)) ∧
      ((∃ j < c.epochs.toNat, (epochLoss E c ts vs j).lt .pinf = true) →
        ∃ S th, Spec.Trained E w'.det S c.thresholdWindow th ∧
          IsRank (S.scores train S.input (train.length - S.input)) ⌊dmul (train.length - S.input : Nat) c.level⌋₊ th) := by
  obtain ⟨f, t, c, train, val, ts, vs, hd, hp, hs⟩ := C73_threshold hE hw h
  obtain ⟨maxs, mins, -, -, -, -, h1, h2⟩ := hp.range
  have hc : c.horizon = k := accepted_horizon hp.accepted hk
  refine ⟨f, t, c, train, val, ts, vs, maxs, mins, hd, hp, fun j hj => ⟨h1.window j hj, ?_⟩, fun j hj => ⟨?_, ?_⟩, fun hb => ?_⟩
  · rw [h1.target j hj, hc]
  · rw [h2.window j hj]
    simp only [Nat.mul_one]
  · rw [h2.target j hj]
    simp only [Nat.mul_one, Nat.add_sub_cancel]
  · obtain ⟨S, th, lo, hi, hS, -, hr, -⟩ := hs hb
    exact ⟨S, th, hS, hr⟩

/-! ### concrete cases -/

/-- a training with horizon 2 that returns -/
example : ∃ w', Reachable (demoE loss0) (demoWith "horizon" (.int 2)) ∧ HorizonOf (demoWith "horizon" (.int 2)).params 2 ∧
    Multi.fit (demoE loss0) (.frame demoTrain) (demoWith "horizon" (.int 2)) = (w', .ok ()) := by
  obtain ⟨w', u, h, -⟩ := returned_ok (x := Multi.fit (demoE loss0) (.frame demoTrain)) (w := demoWith "horizon" (.int 2)) (test := fun _ => true)
    (by decide +kernel)
  exact ⟨w', .start _ _ (by intro x k h; cases h), .inr ⟨_, rfl, rfl, by decide⟩, h⟩

/-- the detector is trained a second time -/
def twiceWorld : World := (Multi.fit demoT.env (.frame demoTrain) { trainedWorld with params := trainParams }).1

/-- the checkpoint of the second training, with its horizon replaced -/
def horizonFile (h : Nat) : File :=
  match twiceWorld.disk (demoT.joinPath "model") with
  | .ckpt k => .ckpt { k with config := { k.config with horizon := h } }
  | f => f

/-- a program that loads this checkpoint and predicts -/
def horizonCalls (h : Nat) : List Call :=
  [.file "m" (horizonFile h), .load (some "m"), .params trainParams, .predict (.frame demoTest)]

theorem horizonCalls_same : List.Forall₂ SameUse (horizonCalls 1) (horizonCalls 7) := by
  refine .cons (.file _ ?_) (.cons (.load _) (.cons (.params _) (.cons (.predict _) .nil)))
  unfold horizonFile
  cases twiceWorld.disk (demoT.joinPath "model") with
  | missing => exact .missing
  | garbage => exact .garbage
  | ckpt k => exact .ckpt ⟨rfl, rfl, rfl, rfl⟩

/-- checkpoints with horizons 1 and 7: predictions come out -/
example : List.Forall₂ SameUse (horizonCalls 1) (horizonCalls 7) ∧
    (match outcomes demoT.env ⟨{}, fun _ => .missing, fun _ => none⟩ (horizonCalls 7) with
      | [.ok _, .ok _, .ok _, .ok (_ :: _)] => true
      | _ => false) = true :=
  ⟨horizonCalls_same, by decide +kernel⟩

end Verif
