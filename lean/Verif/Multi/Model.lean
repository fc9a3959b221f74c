import Verif.Multi.Module

/-!
# The multivariate detector

Model of `multivariate/model.py` and `multivariate/contract.py`: a detector object, the files in the save directory and
the caller's params dict as state, exceptions as values that keep the mutations made before them.

Simplifications. mlflow logging, device moves and progress bars have no effect. Training steps are an arbitrary function of the
training state and the batch (Adam, dropout, noise). Parameter values outside the ranges named in `Config.ofParams` are not
modelled, nor is a network with non-finite weights. Arrays `inference` computes and no caller reads (reconstruction probabilities,
forecasts) are omitted.
-/

namespace Verif.Multi

/-- everything the multivariate code gets from its libraries; `TS` is the training state (weights, optimizer, generator) -/
structure MEnv (TS : Type) extends TableEnv, NumEnv where
  /-- `int(s)` for a string; `none` is ValueError -/
  parseInt : String → Option Int
  /-- the file `os.path.join(save, "best_multi_ad_model.pt")` -/
  joinPath : String → String
  /-- `DataLoader(…, shuffle=True)` on an empty dataset raises ValueError (depends on the torch version) -/
  emptyShuffle : Bool
  /-- `torch.manual_seed`, a new network and a new optimizer -/
  initState : Config → TS
  /-- order in which the shuffling loader visits the samples, and the generator afterwards -/
  shuffle : TS → Nat → List Nat × TS
  /-- one training step on a batch: new state, and the batch losses -/
  step : Config → TS → List Sample → TS × PyFloat
  /-- the weights; `none` if some are not finite -/
  weights : Config → TS → Option Net
  /-- the loss of a batch in evaluation mode -/
  evalLoss : Config → Option Net → List Sample → PyFloat

/-- the dictionary keys `MultiADConfig` accepts (`contract.py:28-52`, used in `model.py:407`) -/
def validFields : List String :=
  ["data_dim", "cnn_kernel_size", "input_size", "gat_window_size", "hidden_size", "epochs", "batch_size", "seed",
   "z_dim", "enc_dim", "dec_dim", "interval", "lr", "beta", "gamma", "device", "horizon", "dropout", "save",
   "train_ratio", "val_ratio", "normalize_base", "threshold_window", "level"]

/-- an integer entry of at least `lo`, or the default -/
def readNat (p : Params) (key : String) (dflt lo : Nat) : Except Stop Nat :=
  match p key with
  | none => .ok dflt
  | some v => match v.asInt? with
    | some i => if (lo : Int) ≤ i then .ok i.toNat else .error .unmodelled
    | none => .error .unmodelled

/-- an integer entry, or the default -/
def readInt (p : Params) (key : String) (dflt : Int) : Except Stop Int :=
  match p key with
  | none => .ok dflt
  | some v => match v.asInt? with
    | some i => .ok i
    | none => .error .unmodelled

/-- a finite nonnegative number, or the default -/
def readRat (p : Params) (key : String) (dflt : ℚ) : Except Stop ℚ :=
  match p key with
  | none => .ok dflt
  | some v => match v.asNumber? with
    | some (.fin q) => if 0 ≤ q then .ok q else .error .unmodelled
    | _ => .error .unmodelled

/-- a string, or the default -/
def readStr (p : Params) (key : String) (dflt : String) : Except Stop String :=
  match p key with
  | none => .ok dflt
  | some (.str s) => .ok s
  | some _ => .error .unmodelled

/-- `MultiADConfig(**params)` (`contract.py:28-52`). Integers must be positive (`epochs` arbitrary), ratios and level
nonnegative; other values are accepted by the dataclass and not modelled. `normalize_base` is overwritten by `fit`. -/
def Config.ofParams (p : Params) (dim input tw : Nat) : Except Stop Config := do
  let kernel ← readNat p "cnn_kernel_size" 7 1
  let gat ← readNat p "gat_window_size" 100 1
  let hidden ← readNat p "hidden_size" 100 1
  let epochs ← readInt p "epochs" 100
  let batch ← readNat p "batch_size" 128 1
  let interval ← readNat p "interval" 10 1
  let horizon ← readNat p "horizon" 1 1
  let save ← readStr p "save" "model"
  let tr ← readRat p "train_ratio" (roundDouble (8 / 10))
  let vr ← readRat p "val_ratio" (roundDouble (1 / 10))
  let level ← readRat p "level" (roundDouble (8 / 10))
  pure { dataDim := dim, kernel := kernel, inputSize := input, gatWindow := gat, hidden := hidden, epochs := epochs,
         batchSize := batch, interval := interval, horizon := horizon, save := save, trainRatio := tr, valRatio := vr,
         base := none, thresholdWindow := tw, level := level, extra := p }

/-- `int(v)`; strings by `parseInt`, a float is truncated -/
def toInt {TS} (E : MEnv TS) : PyVal → Except PyErr Int
  | .int i => .ok i
  | .bool b => .ok (if b then 1 else 0)
  | .float (.fin q) => .ok (pyInt q)
  | .float .nan => .error .valueError
  | .float _ => .error .exception
  | .str s => match E.parseInt s with
    | some i => .ok i
    | none => .error .valueError
  | _ => .error .typeError

/-- `compute_window_sizes` (`model.py:370-381`). A negative window is not modelled. -/
def windowSizes {TS} (E : MEnv TS) (v : Option PyVal) : Except Stop (Nat × Nat) :=
  if (v.getD .none).truthy then
    match toInt E (v.getD .none) with
    | .error e => .error (.err e)
    | .ok w => if w < 0 then .error .unmodelled
      else .ok (w.toNat / 2, min 200 (w.toNat - w.toNat / 2))
  else .ok (200, 200)

/-! ### state -/

/-- contents of a checkpoint (`model.py:142-149`) -/
structure Ckpt where
  net : Option Net
  config : Config
  pct : Option (List ℚ)
  threshold : Option ℚ
  scoreMax : Option ℚ
  scoreMin : Option ℚ

inductive File where
  | missing | garbage
  | ckpt (c : Ckpt)

/-- a `MultivariateGraphAttnDetector`: the configuration it was built for and its weights -/
structure NetObj where
  config : Config
  net : Option Net

/-- the detector object (`model.py:42-51`); `vars` is `self.variables` -/
structure Det where
  config : Option Config := none
  model : Option NetObj := none
  pct : Option (List ℚ) := none
  threshold : Option ℚ := none
  scoreMax : Option ℚ := none
  scoreMin : Option ℚ := none
  modelPath : Option String := none
  vars : Option (List String) := none

structure World where
  det : Det
  disk : String → File
  params : Params

/-- state and exceptions: mutations survive an exception -/
def MM (α : Type) := World → World × Except Stop α

namespace MM

def pure {α} (a : α) : MM α := fun w => (w, .ok a)

def bind {α β} (x : MM α) (f : α → MM β) : MM β := fun w =>
  match x w with
  | (w', .ok a) => f a w'
  | (w', .error e) => (w', .error e)

instance : Monad MM where
  pure := pure
  bind := bind

def get : MM World := fun w => (w, .ok w)
def modifyDet (f : Det → Det) : MM Unit := fun w => ({ w with det := f w.det }, .ok ())
def modifyParams (f : Params → Params) : MM Unit := fun w => ({ w with params := f w.params }, .ok ())
def writeFile (path : String) (c : Ckpt) : MM Unit := fun w =>
  ({ w with disk := fun x => if x = path then .ckpt c else w.disk x }, .ok ())
def throw {α} (e : PyErr) : MM α := fun w => (w, .error (.err e))
/-- a computation without effects -/
def of {α} (x : Except Stop α) : MM α := fun w => (w, x)

end MM

/-- the rows of a processed table: `data.values` -/
def Table.rows (t : Table) : List (List ℚ) :=
  (List.range t.index.length).map fun i => t.cols.map fun c => c.getD i 0

/-- `Frame.WF` as a test -/
def Frame.ok (f : Frame) : Bool :=
  !f.index.isEmpty && !f.cols.isEmpty && f.cols.all fun c => c.cells.length == f.index.length

/-- `_process_data_and_params` (`model.py:392-421`). The keys `MultiADConfig` does not know are removed from the caller's dict,
among them `sliding_window`, `fill_na_method` and `fill_na_value`. -/
def processData {TS} (E : MEnv TS) (data : MData) : MM (Frame × Table × Config) := do
  match data with
  | .other => MM.throw .dataFormatError
  | .frame f =>
    let w ← MM.get
    let method := (w.params "fill_na_method").getD (.str "Linear")
    let value := (w.params "fill_na_value").getD (.float (.fin 0))
    let sizes ← MM.of (windowSizes E (w.params "sliding_window"))
    MM.modifyParams fun p => (p.set "input_size" (.int sizes.1)).set "threshold_window" (.int sizes.2)
    MM.modifyParams fun p => fun k => if k ∈ validFields then p k else none
    let proc ← MM.of (lift (Processor.init E.toTableEnv method value))
    if f.ok then
      let t ← MM.of (proc.process E.toTableEnv (.frame f))
      MM.modifyParams fun p => p.set "data_dim" (.int t.names.length)
      let w ← MM.get
      let c ← MM.of (Config.ofParams w.params t.names.length sizes.1 sizes.2)
      pure (f, t, c)
    else MM.of (.error .unmodelled)

/-! ### inference -/

/-- `torch.exp(torch.min(2 * |x_pred - target|, 1)) - 1` (`model.py:322-329`) -/
def contribution (E : NumEnv) (p t : ℚ) : ℚ := E.exp (min (2 * |p - t|) 1) - 1

/-- multiplication of a row with `pct_weight`, with numpy broadcasting of a vector of length 1 (`model.py:341-343`) -/
def weightRow (row pct : List ℚ) : Except PyErr (List ℚ) :=
  if row.length = pct.length then .ok (List.zipWith (· * ·) row pct)
  else match row, pct with
    | _, [a] => .ok (row.map (· * a))
    | [x], _ => .ok (pct.map (x * ·))
    | _, _ => .error .valueError

/-- what `inference` collects; `none` before the first batch -/
structure InferOut where
  contrib : Option (List (List ℚ))
  total : Option (List ℚ)
  attn : Option (List (List (List ℚ)))

/-- one batch of `inference` (`model.py:312-358`) -/
def inferBatch (E : NumEnv) (c : Config) (N : Net) (pct : List ℚ) (o : InferOut) (b : List Sample) :
    Except PyErr InferOut := do
  let out ← forward E c N (b.map (·.input))
  let rows := List.zipWith (fun (n : NetOut) s => List.zipWith (contribution E) n.pred s.target) out b
  let weighted ← rows.mapM fun r => weightRow r pct
  pure ⟨appendResult o.contrib weighted, appendResult o.total (weighted.map npMean),
    appendResult o.attn (out.map (·.attn))⟩

/-- the dataset `inference` builds (`model.py:290-299`) -/
def inferSet (c : Config) (base : List ℚ × List ℚ) (values : List (List ℚ)) : Dataset :=
  { data := values, window := c.inputSize, interval := 1, horizon := 1, maxs := base.1, mins := base.2,
    clipMin := -1000, clipMax := 1000 }

/-- `inference` (`model.py:286-367`) -/
def inference {TS} (E : MEnv TS) (d : Det) (values : List (List ℚ)) : Except Stop InferOut :=
  match d.config with
  | none => .error (.err .attributeError)
  | some c =>
    match c.base with
    | none => .error (.err .attributeError)
    | some base =>
      match d.model with
      | none => .error (.err .attributeError)
      | some ⟨_, none⟩ => .error .unmodelled
      | some ⟨m, some N⟩ =>
        match d.pct with
        | none => .error (.err .typeError)
        | some pct => lift do
          let samples ← (inferSet c base values).samples E.toNumEnv
          (chunk c.batchSize samples).foldlM (inferBatch E.toNumEnv m N pct) ⟨none, none, none⟩

/-- `compute_thresholds` (`model.py:383-390`): threshold, maximum, minimum. `np.sort(None)` raises an `AxisError`, a
`ValueError`. -/
def computeThresholds {TS} (E : MEnv TS) (d : Det) (values : List (List ℚ)) : Except Stop (ℚ × ℚ × ℚ) := do
  let o ← inference E d values
  match o.total, d.config with
  | some scores, some c => do
    let th ← lift (pyIndex (sortQ scores) (intMul scores.length c.level))
    pure (th, npMax scores, npMin scores)
  | _, _ => .error (.err .valueError)

/-! ### fit -/

/-- `save_checkpoint` (`model.py:140-151`) -/
def saveCheckpoint (c : Config) (net : Option Net) : MM Unit := do
  let w ← MM.get
  MM.writeFile (w.det.modelPath.getD "")
    ⟨net, c, w.det.pct, w.det.threshold, w.det.scoreMax, w.det.scoreMin⟩

/-- `load_checkpoint` (`model.py:153-161`); `torch.load` on something that is not a checkpoint raises -/
def loadCheckpoint (path : Option String) : MM Unit := do
  let w ← MM.get
  match path with
  | none => MM.throw .attributeError
  | some p =>
    match w.disk p with
    | .missing => MM.throw .fileNotFound
    | .garbage => MM.throw .exception
    | .ckpt k => MM.modifyDet fun d =>
      { d with config := some k.config, model := some ⟨k.config, k.net⟩, pct := k.pct, threshold := k.threshold,
               scoreMax := k.scoreMax, scoreMin := k.scoreMin }

/-- the batches of the shuffling training loader: only full ones (`drop_last=True`, `model.py:92-98`) -/
def trainBatches (batch : Nat) (samples : List Sample) (order : List Nat) : List (List Sample) :=
  (chunk batch (order.filterMap fun i => samples[i]?)).filter fun b => b.length = batch

/-- `train_epoch` (`model.py:163-187`): the state after it and the meter of the loss -/
def trainEpoch {TS} (E : MEnv TS) (c : Config) (samples : List Sample) (ts : TS) : TS × Meter :=
  let (order, ts) := E.shuffle ts samples.length
  (trainBatches c.batchSize samples order).foldl
    (fun (s : TS × Meter) b => let (t, l) := E.step c s.1 b; (t, s.2.update l b.length)) (ts, Meter.reset)

/-- the loss of a batch in evaluation mode, in exact arithmetic (`model.py:198-204`, `module.py:197-210`). `evalLoss` of the
environment is not assumed to be this (`MEnv.Exact`): the code computes in 32 bits and the loss can overflow. -/
def batchLoss (E : NumEnv) (c : Config) (N : Net) (b : List Sample) : Except Stop ℚ := do
  let beta ← readRat c.extra "beta" 1
  let o ← lift (forward E c N (b.map (·.input)))
  pure (criterion E (o.map (·.pred)).flatten (o.map (·.recon)).flatten (b.map (·.target)).flatten (o.map (·.mu)).flatten
    (o.map (·.logv)).flatten beta).1

/-- evaluation computes the loss exactly -/
def MEnv.Exact {TS} (E : MEnv TS) : Prop :=
  ∀ c N b q, batchLoss E.toNumEnv c N b = .ok q → E.evalLoss c (some N) b = .fin q

/-- `evaluate_epoch` (`model.py:189-213`): the meter of the loss -/
def evalEpoch {TS} (E : MEnv TS) (c : Config) (net : Option Net) (batches : List (List Sample)) : Meter :=
  batches.foldl (fun m b => m.update (E.evalLoss c net b) b.length) Meter.reset

/-- what a forward pass raises in training mode: the window is shorter than the kernel, or BatchNorm gets a single sample -/
def trainError (c : Config) (samples : List Sample) : Option PyErr :=
  if samples.length < c.batchSize then none
  else if c.inputSize < c.kernel then some .runtimeError
  else if c.batchSize = 1 then some .valueError
  else none

/-- what a forward pass raises in evaluation mode -/
def evalError (c : Config) (samples : List Sample) : Option PyErr :=
  if samples.length = 0 then none
  else if c.inputSize < c.kernel then some .runtimeError
  else none

/-- one iteration of the epoch loop (`model.py:109-131`): training state and best loss so far -/
def epoch {TS} (E : MEnv TS) (c : Config) (train val : List Sample) (s : TS × PyFloat) : MM (TS × PyFloat) := do
  match trainError c train with
  | some e => MM.throw e
  | none =>
    let ts := (trainEpoch E c train s.1).1
    match evalError c val with
    | some e => MM.throw e
    | none =>
      let net := E.weights c ts
      let loss := (evalEpoch E c net (chunk c.batchSize val)).avg
      if loss.lt s.2 then
        MM.modifyDet fun d => { d with model := some ⟨c, net⟩ }
        saveCheckpoint c net
        pure (ts, loss)
      else pure (ts, s.2)

/-- the epoch loop (`model.py:108-131`) -/
def epochs {TS} (E : MEnv TS) (c : Config) (train val : List Sample) : Nat → TS × PyFloat → MM (TS × PyFloat)
  | 0, s => pure s
  | n + 1, s => do
    let s' ← epoch E c train val s
    epochs E c train val n s'

/-- column minima/maxima of the training rows (`model.py:65-66`) -/
def colFold (f : List ℚ → ℚ) (dim : Nat) (rows : List (List ℚ)) : List ℚ :=
  (List.range dim).map fun j => f (rows.map fun r => r.getD j 0)

/-- training and validation rows (`model.py:61-64`) -/
def split (c : Config) (values : List (List ℚ)) : List (List ℚ) × List (List ℚ) :=
  let tl := (intMul values.length c.trainRatio).toNat
  let vl := (intMul values.length c.valRatio).toNat
  (values.take tl, (values.take (vl + tl)).drop tl)

/-- the training dataset (`model.py:72-81`) -/
def trainSet (c : Config) (base : List ℚ × List ℚ) (rows : List (List ℚ)) : Dataset :=
  { data := rows, window := c.inputSize, interval := c.interval, horizon := c.horizon, maxs := base.1, mins := base.2,
    clipMin := 0, clipMax := 1 }

/-- `fit` (`model.py:53-138`) -/
def fit {TS} (E : MEnv TS) (data : MData) : MM Unit := do
  let (f, t, c0) ← processData E data
  MM.modifyDet fun d => { d with config := some c0, vars := some t.names }
  let pct ← MM.of (pctWeight (c0.thresholdWindow + c0.inputSize) f)
  MM.modifyDet fun d => { d with pct := some pct, modelPath := some (E.joinPath c0.save) }
  let (train, val) := split c0 t.rows
  if train.isEmpty then MM.throw .valueError
  else
    let base := (colFold npMax c0.dataDim train, colFold npMin c0.dataDim train)
    let c := { c0 with base := some base }
    MM.modifyDet fun d => { d with config := some c }
    let ts ← MM.of (lift ((trainSet c base train).samples E.toNumEnv))
    let vs ← MM.of (lift ((inferSet c base val).samples E.toNumEnv))
    if ts.isEmpty && E.emptyShuffle then MM.throw .valueError
    else
      let _ ← epochs E c ts vs c.epochs.toNat (E.initState c, .pinf)
      loadCheckpoint (some (E.joinPath c0.save))
      let w ← MM.get
      let r ← MM.of (computeThresholds E w.det train)
      MM.modifyDet fun d => { d with threshold := some r.1, scoreMax := some r.2.1, scoreMin := some r.2.2 }

/-! ### predict -/

structure Contribution where
  name : String
  score : PyFloat
  changedVars : List String
  changedVals : List ℚ
  deriving DecidableEq

structure Item where
  index : Int
  isAnomaly : Bool
  score : ℚ
  severity : ℚ
  interpretation : List Contribution
  deriving DecidableEq

/-- the dynamic thresholds (`model.py:246-254`), `i` running down from `result_n - 1` to `threshold_window - 1` -/
def dynThresholds (tw : Nat) (scores : List ℚ) : Except PyErr (List ℚ) :=
  let n := scores.length
  ((List.range (n - (tw - 1))).map fun k => n - 1 - k).mapM fun i =>
    getThreshold ((scores.take (n - i)).drop (n - tw - i))

/-- the decision (`model.py:259`) -/
def decideAnomaly (lower upper s t : ℚ) : Bool := (decide (t ≤ s) && decide (lower ≤ s)) || decide (upper < s)

/-- elementwise mean of matrices -/
def meanMats (l : List (List (List ℚ))) : List (List ℚ) :=
  match l with
  | [] => []
  | m :: _ => m.mapIdx fun i r => r.mapIdx fun j _ => npMean (l.map fun x => (x.getD i []).getD j 0)

/-- `attn_feats[-L:] - unfold(0, tw, 1).mean(-1)[-L:]` (`model.py:265-273`) -/
def attnChange (tw len : Nat) (attn : List (List (List ℚ))) : List (List (List ℚ)) :=
  let prev := (List.range (attn.length + 1 - tw)).map fun k => meanMats ((attn.drop k).take tw)
  List.zipWith (List.zipWith (List.zipWith (· - ·))) (attn.drop (attn.length - len)) (prev.drop (prev.length - len))

/-- `variables[i]` -/
def varName (vars : List String) (i : Nat) : Except PyErr String :=
  match vars[i]? with
  | some s => .ok s
  | none => .error .indexError

/-- the cutoff of `model.py:481-483` -/
def cutoff (n : Nat) : ℚ := min (1 / 1000) (1 / (125 / 100 * n))

/-- one entry of `interpretation` (`model.py:477-497`) -/
def packVar (E : NumEnv) (vars : List String) (contrib : List PyFloat) (attn : List (List ℚ)) (v : Nat) :
    Except PyErr Contribution := do
  let row := attn.getD v []
  let top := (E.argsortDesc (row.map fun x => .fin |x|)).take 10
  let sel := top.filter fun k => cutoff vars.length < |row.getD k 0|
  let names ← sel.mapM (varName vars)
  let name ← varName vars v
  pure ⟨name, contrib.getD v .nan, names, sel.map fun k => row.getD k 0⟩

/-- one result (`model.py:471-506`) -/
def packItem (E : NumEnv) (vars : List String) (index : Int) (anomaly : Bool) (score severity : ℚ)
    (contrib : List PyFloat) (attn : List (List ℚ)) : Except PyErr Item := do
  let interp ← (E.argsortDesc contrib).mapM (packVar E vars contrib attn)
  pure ⟨index, anomaly, score, severity, interp⟩

/-- `_pack_response` (`model.py:424-507`) -/
def packResponse (E : NumEnv) (index : List Int) (vars : List String) (anomalies : List Bool) (scores severity : List ℚ)
    (contrib : List (List PyFloat)) (attn : List (List (List ℚ))) : Except PyErr (List Item) :=
  if index.length < anomalies.length then .error .assertion
  else (List.range anomalies.length).mapM fun k =>
    packItem E vars (index.getD (index.length - anomalies.length + k) 0) (anomalies.getD k false) (scores.getD k 0)
      (severity.getD k 0) (contrib.getD k []) (attn.getD k [])

/-- lines 225-284 of `predict`: what follows loading the model -/
def detectWith {TS} (E : MEnv TS) (d : Det) (f : Frame) (t : Table) : Except Stop (List Item) := do
  let values := t.rows
  match d.config with
  | none => .error (.err .attributeError)
  | some c =>
    if values.length < c.thresholdWindow + c.inputSize then .error (.err .valueError)
    else match d.threshold with
      | none => .error (.err .typeError)
      | some th => do
        let upper := max (1 / 2) th
        let lower := min (3 / 10) th
        let o ← inference E d values
        match o.contrib, o.total, o.attn with
        | some contrib, some scores, some attn => do
          let contribN := contrib.map fun r => r.map fun x => npDiv x r.sum
          let ths ← lift (dynThresholds c.thresholdWindow scores)
          let scores' := scores.drop (c.thresholdWindow - 1)
          let contrib' := contribN.drop (c.thresholdWindow - 1)
          let anomalies := List.zipWith (decideAnomaly lower upper) scores' ths
          let severity := List.zipWith (fun s a => if a then s else 0) (severityOf E.toNumEnv scores') anomalies
          let attn' := attnChange c.thresholdWindow anomalies.length attn
          lift (packResponse E.toNumEnv f.index t.names anomalies scores' severity contrib' attn')
        | _, _, _ => .error (.err .typeError)

/-- loading the model on demand (`model.py:220-224`): every failure becomes `ValueError` -/
def ensureModel : MM Unit := fun w =>
  match w.det.model with
  | some _ => (w, .ok ())
  | none =>
    match loadCheckpoint w.det.modelPath w with
    | (w', .ok _) => (w', .ok ())
    | (w', .error _) => (w', .error (.err .valueError))

/-- `predict` (`model.py:215-284`) -/
def predict {TS} (E : MEnv TS) (data : MData) : MM (List Item) := do
  let (f, t, _) ← processData E data
  ensureModel
  let w ← MM.get
  MM.of (detectWith E w.det f t)

end Verif.Multi
