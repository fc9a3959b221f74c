import Verif.Multi.Dataset

/-!
# The network in evaluation mode

Model of `multivariate/module.py`. A tensor is a nested list; `view` is flattening and cutting into pieces. Dropout
is the identity in evaluation mode. Matrix products are exact.
-/

namespace Verif.Multi

/-- `MultiADConfig` (`contract.py:28-52`): the fields the modelled code reads. `extra` holds the whole dictionary the
object was built from, for the fields only training reads (`lr`, `beta`, `seed`, `dropout`, …). -/
structure Config where
  dataDim : Nat
  kernel : Nat
  inputSize : Nat
  gatWindow : Nat
  hidden : Nat
  epochs : Int
  batchSize : Nat
  interval : Nat
  horizon : Nat
  save : String
  trainRatio : ℚ
  valRatio : ℚ
  /-- `normalize_base`: maxima and minima -/
  base : Option (List ℚ × List ℚ)
  thresholdWindow : Nat
  level : ℚ
  extra : Params

def dot (a b : List ℚ) : ℚ := (List.zipWith (· * ·) a b).sum

def vadd (a b : List ℚ) : List ℚ := List.zipWith (· + ·) a b

/-- `nn.Linear` -/
structure Linear where
  weight : List (List ℚ)
  bias : List ℚ

def Linear.apply (L : Linear) (x : List ℚ) : List ℚ := vadd (L.weight.map fun r => dot r x) L.bias

/-- `nn.BatchNorm1d`, per channel: running mean, running variance, weight, bias -/
structure BatchNorm where
  channels : List (ℚ × ℚ × ℚ × ℚ)

/-- evaluation mode: running statistics, `eps = 1e-5` -/
def BatchNorm.apply (E : NumEnv) (B : BatchNorm) (x : List ℚ) : List ℚ :=
  List.zipWith (fun v c => (v - c.1) / E.sqrt (c.2.1 + 1 / 100000) * c.2.2.1 + c.2.2.2) x B.channels

def relu (x : List ℚ) : List ℚ := x.map (max 0)

/-- `nn.GRU` with one layer: input and hidden projections of the gates r, z, n -/
structure Gru where
  ir : Linear
  iz : Linear
  inn : Linear
  hr : Linear
  hz : Linear
  hn : Linear

/-- one step of `nn.GRU` -/
def Gru.step (E : NumEnv) (G : Gru) (h x : List ℚ) : List ℚ :=
  let r := (vadd (G.ir.apply x) (G.hr.apply h)).map E.sigmoid
  let z := (vadd (G.iz.apply x) (G.hz.apply h)).map E.sigmoid
  let n := (vadd (G.inn.apply x) (List.zipWith (· * ·) r (G.hn.apply h))).map E.tanh
  vadd (List.zipWith (fun z n => (1 - z) * n) z n) (List.zipWith (· * ·) z h)

/-- the last hidden state -/
def Gru.run (E : NumEnv) (hidden : Nat) (G : Gru) (xs : List (List ℚ)) : List ℚ :=
  xs.foldl (G.step E) (List.replicate hidden 0)

/-- `VAE` (`module.py:51-137`) -/
structure Vae where
  enc1 : Linear
  encB1 : BatchNorm
  enc2 : Linear
  encB2 : BatchNorm
  dec1 : Linear
  decB1 : BatchNorm
  dec2 : Linear
  decB2 : BatchNorm
  mu : Linear
  logv : Linear
  recon : Linear
  eps : List ℚ

/-- `VAE.encode` (`module.py:89-99`) -/
def Vae.encode (E : NumEnv) (V : Vae) (x : List ℚ) : List ℚ × List ℚ :=
  let h := relu (V.encB2.apply E (V.enc2.apply (relu (V.encB1.apply E (V.enc1.apply x)))))
  (V.mu.apply h, V.logv.apply h)

/-- `VAE.decode` (`module.py:101-108`) -/
def Vae.decode (E : NumEnv) (V : Vae) (z : List ℚ) : List ℚ :=
  let h := relu (V.decB2.apply E (V.dec2.apply (relu (V.decB1.apply E (V.dec1.apply z)))))
  (V.recon.apply h).map E.sigmoid

/-- `VAE.reparameterize` in evaluation mode (`module.py:110-119`): the fixed `eps` -/
def Vae.reparam (E : NumEnv) (V : Vae) (mu logv : List ℚ) : List ℚ :=
  vadd mu (List.zipWith (· * ·) V.eps (logv.map fun v => E.exp (v * (1 / 2))))

/-- `VAE.forward` (`module.py:121-132`) -/
def Vae.forward (E : NumEnv) (V : Vae) (x : List ℚ) : List ℚ × List ℚ × List ℚ :=
  let (mu, logv) := V.encode E x
  (V.decode E (V.reparam E mu logv), mu, logv)

/-- the trained parameters of `MultivariateGraphAttnDetector` -/
structure Net where
  featKey : List ℚ
  featQuery : List ℚ
  timeKey : List ℚ
  timeQuery : List ℚ
  gru : Gru
  fcNorm : BatchNorm
  fc1 : Linear
  fc2 : Linear
  fc3 : Linear
  vae : Vae

/-- transpose of a matrix with `n` columns: `permute(0, 2, 1)` of one sample -/
def transpose (n : Nat) (m : List (List ℚ)) : List (List ℚ) :=
  (List.range n).map fun j => m.map fun r => r.getD j 0

/-- `F.leaky_relu(·, negative_slope=0.2)` -/
def leaky (x : ℚ) : ℚ := if 0 ≤ x then x else x / 5

/-- `F.softmax` of one row, computed relative to the maximum -/
def softmax (E : NumEnv) (l : List ℚ) : List ℚ :=
  let m := npMax l
  let s := (l.map fun x => E.exp (x - m)).sum
  l.map fun x => E.exp (x - m) / s

/-- `key.repeat(1, 1, N).view(B, N*N, 1)` (`module.py:40-42`): the buffer of the whole batch, cut into samples -/
def repeatKeys (n : Nat) (keys : List (List ℚ)) : List (List ℚ) :=
  chunk (n * n) (keys.flatMap fun ks => ks.flatMap fun k => List.replicate n k)

/-- `query.repeat(1, N, 1)` (`module.py:42`) -/
def repeatQueries (n : Nat) (queries : List (List ℚ)) : List (List ℚ) :=
  queries.map fun qs => (List.replicate n qs).flatten

/-- `attn_input.squeeze(2).view(B, N, N)` (`module.py:43`): the buffer of the whole batch, cut into rows and samples -/
def viewSquare (n : Nat) (b : List (List ℚ)) : List (List (List ℚ)) := chunk n (chunk n b.flatten)

/-- the attention maps of a batch with `n` nodes (`module.py:35-45`) -/
def attnMaps (E : NumEnv) (wk wq : List ℚ) (n : Nat) (x : List (List (List ℚ))) : List (List (List ℚ)) :=
  let keys := x.map fun s => s.map fun r => dot r wk
  let queries := x.map fun s => s.map fun r => dot r wq
  let input := List.zipWith vadd (repeatKeys n keys) (repeatQueries n queries)
  (viewSquare n input).map fun m => m.map fun r => softmax E (r.map leaky)

/-- `torch.matmul(attention, x)` for one sample with rows of length `f` -/
def matMul (f : Nat) (a x : List (List ℚ)) : List (List ℚ) :=
  let xt := transpose f x
  a.map fun r => xt.map fun c => dot r c

/-- `GAT.forward` (`module.py:29-48`) on a batch of `n × f` matrices: `attn_feat` (permuted) and `attn_map` -/
def gat (E : NumEnv) (wk wq : List ℚ) (n f : Nat) (x : List (List (List ℚ))) :
    List (List (List ℚ)) × List (List (List ℚ)) :=
  let maps := attnMaps E wk wq n x
  (List.zipWith (fun a s => transpose f (matMul f a s)) maps x, maps)

/-- `F.conv1d` of one series with the moving average weight (`module.py:161-164, 179`) -/
def movingAvg (k : Nat) (l : List ℚ) : List ℚ :=
  (List.range (l.length + 1 - k)).map fun i => (((l.drop i).take k).map fun v => v * (1 / (k : ℚ))).sum

/-- `nn.AdaptiveMaxPool1d(w)` (`module.py:166, 182`): bin `i` covers `[⌊i·n/w⌋, ⌈(i+1)·n/w⌉)` -/
def adaptiveMax (w : Nat) (l : List ℚ) : List ℚ :=
  (List.range w).map fun i =>
    let a := i * l.length / w
    let b := ((i + 1) * l.length + w - 1) / w
    npMax ((l.drop a).take (b - a))

/-- what the network returns for one sample -/
structure NetOut where
  pred : List ℚ
  recon : List ℚ
  mu : List ℚ
  logv : List ℚ
  attn : List (List ℚ)

/-- lines 176-183 of `forward`: moving average and pooling of every series of the batch. The batch and variable axes are
merged by `view`, convolved, and split again. -/
def smoothPool (c : Config) (x : List (List (List ℚ))) : List (List (List ℚ)) :=
  let series := (x.map fun s => transpose c.dataDim s).flatten
  let conv := series.map (movingAvg c.kernel)
  (chunk c.dataDim conv).map fun s => s.map (adaptiveMax c.gatWindow)

/-- `torch.cat([x, h_feat, h_time], dim=2)` for one sample -/
def catRows (a b c : List (List ℚ)) : List (List ℚ) :=
  List.zipWith (· ++ ·) (List.zipWith (· ++ ·) a b) c

/-- lines 189-194 of `forward` for one sample: GRU, prediction head and VAE -/
def heads (E : NumEnv) (c : Config) (N : Net) (seq : List (List ℚ)) (attn : List (List ℚ)) : NetOut :=
  let h := N.gru.run E c.hidden seq
  let y := N.fc3.apply (relu (N.fc2.apply (relu (N.fc1.apply (N.fcNorm.apply E (relu h))))))
  let (recon, mu, logv) := N.vae.forward E h
  ⟨y.map E.sigmoid, recon, mu, logv, attn⟩

/-- `MultivariateGraphAttnDetector.forward` (`module.py:175-194`) in evaluation mode. `F.conv1d` raises `RuntimeError`
when the window is shorter than the kernel, and the matrix products do when the number of variables differs from
`data_dim`. -/
def forward (E : NumEnv) (c : Config) (N : Net) (x : List (List (List ℚ))) : Except PyErr (List NetOut) :=
  if x.all (fun s => decide (c.kernel ≤ s.length) && s.all fun r => decide (r.length = c.dataDim)) then
    let featX := smoothPool c x
    let timeX := featX.map (transpose c.gatWindow)
    let hTime := (gat E N.timeKey N.timeQuery c.gatWindow c.dataDim timeX).1.map (transpose c.gatWindow)
    let (hFeat, attn) := gat E N.featKey N.featQuery c.dataDim c.gatWindow featX
    let seqs := List.zipWith (fun x ht => (x, ht)) timeX hTime
    .ok (List.zipWith (fun s a => heads E c N (catRows s.1.1 s.2 s.1.2) a)
      (List.zipWith (fun s hf => (s, hf)) seqs hFeat) attn)
  else .error .runtimeError

/-- sum of squared differences: `F.mse_loss(·, ·, reduction="sum")` -/
def mseSum (a b : List ℚ) : ℚ := (List.zipWith (fun x y => (x - y) ^ 2) a b).sum

/-- `AnomalyDetectionCriterion.forward` (`module.py:197-210`): loss, prediction loss, VAE loss -/
def criterion (E : NumEnv) (pred recon target mu logv : List ℚ) (beta : ℚ) : ℚ × ℚ × ℚ :=
  let predLoss := mseSum pred target
  let reconLoss := mseSum recon target
  let kl := -(1 / 2) * (List.zipWith (fun l m => 1 + l - m ^ 2 - E.exp l) logv mu).sum
  let vae := reconLoss + 1 * kl
  (beta * vae + predLoss, predLoss, vae)

end Verif.Multi
