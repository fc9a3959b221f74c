import Verif.Multi.Model

/-!
# Training

Model of `train_epoch` (`model.py:163-187`) and of the network in training mode (`module.py`), in exact arithmetic like the network in evaluation
mode. `Model.lean` treats training steps as an arbitrary function; `TrainEnv.env` builds that function from the code. What remains arbitrary
is torch: the random generator, the initial weights, the gradient and the optimizer.
-/

namespace Verif.Multi

/-! ### the network in training mode -/

/-- the random numbers of one training step: noise for the inputs (`model.py:172-174`), the entries that the dropout of the two attention layers
keeps (`module.py:46`), the latent sample (`module.py:118`) -/
structure Draws where
  noise : List (List (List ℚ))
  timeKeep : List (List (List Bool))
  featKeep : List (List (List Bool))
  latent : List (List ℚ)

/-- mean of channel `j` over the batch -/
def batchMean (xs : List (List ℚ)) (j : Nat) : ℚ := npMean (xs.map fun x => x.getD j 0)

/-- variance of channel `j` over the batch, divided by the number of samples -/
def batchVar (xs : List (List ℚ)) (j : Nat) : ℚ := npMean (xs.map fun x => (x.getD j 0 - batchMean xs j) ^ 2)

/-- `nn.BatchNorm1d` in training mode: the batch is normalised with its own statistics (`eps = 1e-5`) -/
def BatchNorm.normalise (E : NumEnv) (B : BatchNorm) (xs : List (List ℚ)) : List (List ℚ) :=
  xs.map fun x => B.channels.mapIdx fun j c =>
    (x.getD j 0 - batchMean xs j) / E.sqrt (batchVar xs j + 1 / 100000) * c.2.2.1 + c.2.2.2

/-- `nn.BatchNorm1d` in training mode: the running statistics move by a tenth (`momentum = 0.1`) towards those of the batch, the variance divided by
the number of samples minus one -/
def BatchNorm.update (B : BatchNorm) (xs : List (List ℚ)) : BatchNorm :=
  ⟨B.channels.mapIdx fun j c =>
    (c.1 * (1 - 1 / 10) + batchMean xs j * (1 / 10),
      c.2.1 * (1 - 1 / 10) + batchVar xs j * (xs.length / (xs.length - 1)) * (1 / 10), c.2.2)⟩

/-- `nn.Dropout(0.5)`: dropped entries become zero, kept ones are divided by 0.5 (`module.py:27, 46`) -/
def dropout (keep : List (List Bool)) (m : List (List ℚ)) : List (List ℚ) :=
  List.zipWith (List.zipWith fun k v => if k then v / (1 / 2) else 0) keep m

/-- `GAT.forward` (`module.py:29-48`) in training mode -/
def gatTrain (E : NumEnv) (wk wq : List ℚ) (n f : Nat) (keep : List (List (List Bool))) (x : List (List (List ℚ))) :
    List (List (List ℚ)) × List (List (List ℚ)) :=
  let maps := attnMaps E wk wq n x
  let attention := List.zipWith dropout keep maps
  (List.zipWith (fun a s => transpose f (matMul f a s)) attention x, maps)

/-- `VAE.forward` (`module.py:121-132`) in training mode on a batch: reconstructions, means, log variances, and the network with its running
statistics updated -/
def Vae.train (E : NumEnv) (V : Vae) (latent xs : List (List ℚ)) : (List (List ℚ) × List (List ℚ) × List (List ℚ)) × Vae :=
  let a1 := xs.map V.enc1.apply
  let a2 := ((V.encB1.normalise E a1).map relu).map V.enc2.apply
  let h := (V.encB2.normalise E a2).map relu
  let mu := h.map V.mu.apply
  let logv := h.map V.logv.apply
  let std := logv.map fun l => l.map fun v => E.exp (v * (1 / 2))
  let z := List.zipWith vadd mu (List.zipWith (List.zipWith (· * ·)) latent std)
  let d1 := z.map V.dec1.apply
  let d2 := ((V.decB1.normalise E d1).map relu).map V.dec2.apply
  let g := (V.decB2.normalise E d2).map relu
  ((g.map fun v => (V.recon.apply v).map E.sigmoid, mu, logv),
    { V with encB1 := V.encB1.update a1, encB2 := V.encB2.update a2, decB1 := V.decB1.update d1, decB2 := V.decB2.update d2 })

/-- `MultivariateGraphAttnDetector.forward` (`module.py:175-194`) in training mode: outputs, and the network with its running statistics updated.
BatchNorm raises `ValueError` for a single sample. -/
def trainForward (E : NumEnv) (c : Config) (N : Net) (d : Draws) (x : List (List (List ℚ))) : Except PyErr (List NetOut × Net) :=
  if x.all (fun s => decide (c.kernel ≤ s.length) && s.all fun r => decide (r.length = c.dataDim)) then
    let featX := smoothPool c x
    let timeX := featX.map (transpose c.gatWindow)
    let hTime := (gatTrain E N.timeKey N.timeQuery c.gatWindow c.dataDim d.timeKeep timeX).1.map (transpose c.gatWindow)
    let (hFeat, attn) := gatTrain E N.featKey N.featQuery c.dataDim c.gatWindow d.featKeep featX
    let seqs := List.zipWith (fun x ht => (x, ht)) timeX hTime
    let hs := List.zipWith (fun s hf => N.gru.run E c.hidden (catRows s.1 hf s.2)) seqs hFeat
    if x.length = 1 then .error .valueError
    else
      let a := hs.map relu
      let pred := (N.fcNorm.normalise E a).map fun v =>
        (N.fc3.apply (relu (N.fc2.apply (relu (N.fc1.apply v))))).map E.sigmoid
      let ((recon, mu, logv), vae) := N.vae.train E d.latent hs
      .ok ((List.range x.length).map fun i =>
          ⟨pred.getD i [], recon.getD i [], mu.getD i [], logv.getD i [], attn.getD i []⟩,
        { N with fcNorm := N.fcNorm.update a, vae := vae })
  else .error .runtimeError

/-! ### one step -/

/-- `inputs + torch.normal(mean=0, std=0.1)` (`model.py:172-174`) -/
def addNoise (x noise : List (List (List ℚ))) : List (List (List ℚ)) := List.zipWith (List.zipWith vadd) x noise

/-- the loss of a training batch (`model.py:175-180`) for parameters `N` -/
def trainLoss (E : NumEnv) (c : Config) (d : Draws) (b : List Sample) (N : Net) : Except Stop ℚ := do
  let beta ← readRat c.extra "beta" 1
  let (o, _) ← lift (trainForward E c N d (addNoise (b.map (·.input)) d.noise))
  pure (criterion E (o.map (·.pred)).flatten (o.map (·.recon)).flatten (b.map (·.target)).flatten (o.map (·.mu)).flatten
    (o.map (·.logv)).flatten beta).1

/-- running statistics of `B`, weight and bias of `P` -/
def BatchNorm.withParams (B P : BatchNorm) : BatchNorm := ⟨List.zipWith (fun b p => (b.1, b.2.1, p.2.2)) B.channels P.channels⟩

/-- The parameters of `P` with the buffers of `N`: the optimizer changes parameters only (`model.py:105`). Buffers are the running statistics and the
fixed latent noise `eps` (`module.py:87`). -/
def Net.withParams (N P : Net) : Net :=
  { P with
    fcNorm := N.fcNorm.withParams P.fcNorm
    vae := { P.vae with
      encB1 := N.vae.encB1.withParams P.vae.encB1
      encB2 := N.vae.encB2.withParams P.vae.encB2
      decB1 := N.vae.decB1.withParams P.vae.decB1
      decB2 := N.vae.decB2.withParams P.vae.decB2
      eps := N.vae.eps } }

/-- what the constructor of the network reads of the configuration (`module.py:140-172`) -/
structure Layers where
  dataDim : Nat
  kernel : Nat
  inputSize : Nat
  gatWindow : Nat
  hidden : Nat
  zDim : Option PyVal
  encDim : Option PyVal
  decDim : Option PyVal

def Config.layers (c : Config) : Layers :=
  ⟨c.dataDim, c.kernel, c.inputSize, c.gatWindow, c.hidden, c.extra "z_dim", c.extra "enc_dim", c.extra "dec_dim"⟩

/-- what training gets from torch: `G` is the state of the random generator, `O` that of the optimizer -/
structure TrainEnv (G O : Type) extends TableEnv, NumEnv where
  parseInt : String → Option Int
  joinPath : String → String
  emptyShuffle : Bool
  /-- `torch.manual_seed` -/
  manualSeed : Option PyVal → G
  /-- a new network -/
  newNet : Layers → G → Net × G
  /-- the order of the shuffling loader -/
  randperm : G → Nat → List Nat × G
  /-- the random numbers of a step on a batch of this size -/
  draws : Layers → Nat → G → Draws × G
  /-- `torch.optim.Adam(…, lr)` -/
  newOpt : Option PyVal → O
  /-- `loss.backward()`: the gradient at the given parameters -/
  backward : (Net → Except Stop ℚ) → Net → Net
  /-- `optimizer.step()` with parameters and gradient; `none` if a parameter is no longer finite -/
  optStep : O → Net → Net → Option Net × O
  /-- the loss where it is not modelled: a network that is not finite, or an unusual `beta` -/
  otherLoss : Option PyVal → Option Net → List Sample → PyFloat

/-- generator, optimizer, network (`none`: not finite) -/
structure TState (G O : Type) where
  gen : G
  opt : O
  net : Option Net

namespace TrainEnv

variable {G O : Type}

/-- seeding, the new network and the optimizer (`model.py:71, 103-105`) -/
def init (L : TrainEnv G O) (c : Config) : TState G O :=
  let (N, g) := L.newNet c.layers (L.manualSeed (c.extra "seed"))
  ⟨g, L.newOpt (c.extra "lr"), some N⟩

/-- one iteration of `train_epoch` (`model.py:169-186`). The errors of the forward pass are those of `trainError`, which `epoch` raises before. -/
def step (L : TrainEnv G O) (c : Config) (s : TState G O) (b : List Sample) : TState G O × PyFloat :=
  let (d, g) := L.draws c.layers b.length s.gen
  let other := L.otherLoss (c.extra "beta") s.net b
  match s.net with
  | none => (⟨g, s.opt, none⟩, other)
  | some N =>
    match trainForward L.toNumEnv c N d (addNoise (b.map (·.input)) d.noise) with
    | .error _ => (⟨g, s.opt, some N⟩, other)
    | .ok (_, N') =>
      let loss := trainLoss L.toNumEnv c d b
      let (P, o) := L.optStep s.opt N (L.backward loss N)
      (⟨g, o, P.map N'.withParams⟩, match loss N with
        | .ok q => .fin q
        | .error _ => other)

/-- the loss of a batch in evaluation mode -/
def evalLoss (L : TrainEnv G O) (c : Config) (net : Option Net) (b : List Sample) : PyFloat :=
  match net with
  | none => L.otherLoss (c.extra "beta") none b
  | some N => match batchLoss L.toNumEnv c N b with
    | .ok q => .fin q
    | .error _ => L.otherLoss (c.extra "beta") (some N) b

/-- the environment of `fit` with this training -/
def env (L : TrainEnv G O) : MEnv (TState G O) where
  toTableEnv := L.toTableEnv
  toNumEnv := L.toNumEnv
  parseInt := L.parseInt
  joinPath := L.joinPath
  emptyShuffle := L.emptyShuffle
  initState := L.init
  shuffle s n := let (o, g) := L.randperm s.gen n; (o, { s with gen := g })
  step := L.step
  weights _ s := s.net
  evalLoss := L.evalLoss

end TrainEnv

end Verif.Multi
