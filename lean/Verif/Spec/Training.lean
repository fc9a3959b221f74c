import Verif.Spec.Network
import Verif.Multi.Train

/-!
# Training in formulas

What the network computes in training mode, entry by entry. Of the model only records and library functions are used.
-/

namespace Verif.Spec

open Multi

/-- mean of channel `j` over `n` samples -/
def bmean (n : Nat) (x : Nat → Nat → ℚ) (j : Nat) : ℚ := (∑ i ∈ Finset.range n, x i j) / n

/-- sum of squared deviations of channel `j` from its mean over `n` samples -/
def bdev (n : Nat) (x : Nat → Nat → ℚ) (j : Nat) : ℚ := ∑ i ∈ Finset.range n, (x i j - bmean n x j) ^ 2

/-- batch normalisation with the statistics of the batch -/
def tnorm (E : NumEnv) (B : BatchNorm) (n : Nat) (x : Nat → Nat → ℚ) (i j : Nat) : ℚ :=
  let c := B.channels.getD j (0, 0, 0, 0)
  (x i j - bmean n x j) / E.sqrt (bdev n x j / n + 1 / 100000) * c.2.2.1 + c.2.2.2

/-- Running statistics after a batch `x` of `n` samples: nine parts of the old ones and one part of the mean and the variance (with divisor `n - 1`)
of the batch. Weight and bias are kept. -/
def Drifted (n k : Nat) (x : Nat → Nat → ℚ) (B B' : BatchNorm) : Prop :=
  B'.channels.length = k ∧ ∀ j < k,
    let c := B.channels.getD j (0, 0, 0, 0)
    B'.channels.getD j (0, 0, 0, 0) = ((9 * c.1 + bmean n x j) / 10, (9 * c.2.1 + bdev n x j / (n - 1)) / 10, c.2.2)

/-- is an entry kept by the dropout -/
def kept (m : List (List Bool)) (i j : Nat) : Bool := (m.getD i []).getD j false

/-- dropout with probability one half -/
def half (k : Bool) (v : ℚ) : ℚ := if k then 2 * v else 0

/-- the sizes of the random numbers for `n` samples -/
structure DrawsShape (c : Config) (z n : Nat) (d : Draws) : Prop where
  noise : d.noise.length = n ∧ ∀ m ∈ d.noise, Mat c.inputSize c.dataDim m
  time : d.timeKeep.length = n ∧ ∀ m ∈ d.timeKeep, m.length = c.gatWindow ∧ ∀ r ∈ m, r.length = c.gatWindow
  feat : d.featKeep.length = n ∧ ∀ m ∈ d.featKeep, m.length = c.dataDim ∧ ∀ r ∈ m, r.length = c.dataDim
  latent : Mat n z d.latent

/-- The front of the network on one window in training mode, as `Front`, with the attention weights dropped out before they are used. -/
structure TrainFront (E : NumEnv) (c : Config) (N : Net) (s : List (List ℚ)) (kt kf : List (List Bool)) (p A B u : Nat → Nat → ℚ) : Prop where
  pooled : ∀ v < c.dataDim, ∀ t < c.gatWindow,
    IsGreatest {x | ∃ i, Meets (s.length + 1 - c.kernel) c.gatWindow t i ∧ x = smooth s c.kernel v i} (p v t)
  overVars : ∀ v < c.dataDim, IsSoftmax E c.dataDim (fun u => leak (∑ t ∈ Finset.range c.gatWindow, p v t * ent N.featKey t +
    ∑ t ∈ Finset.range c.gatWindow, p u t * ent N.featQuery t)) (A v)
  overBins : ∀ t < c.gatWindow, IsSoftmax E c.gatWindow (fun r => leak (∑ v ∈ Finset.range c.dataDim, p v t * ent N.timeKey v +
    ∑ v ∈ Finset.range c.dataDim, p v r * ent N.timeQuery v)) (B t)
  input1 : ∀ t < c.gatWindow, ∀ v < c.dataDim, u t v = p v t
  input2 : ∀ t < c.gatWindow, ∀ v < c.dataDim,
    u t (c.dataDim + v) = ∑ w ∈ Finset.range c.dataDim, half (kept kf v w) (A v w) * p w t
  input3 : ∀ t < c.gatWindow, ∀ v < c.dataDim,
    u t (2 * c.dataDim + v) = ∑ r ∈ Finset.range c.gatWindow, half (kept kt t r) (B t r) * p v r

/-! Layers after the recurrent one, for a batch of `n` last states `h`. Every normalisation uses the statistics of the batch. -/

/-- the forecasts -/
def forecastT (E : NumEnv) (c : Config) (N : Net) (n : Nat) (h : Nat → Nat → ℚ) (i v : Nat) : ℚ :=
  E.sigmoid (lin N.fc3 c.hidden (pos (lin N.fc2 c.hidden (pos (lin N.fc1 c.hidden (tnorm E N.fcNorm n (fun i => pos (h i)) i))))) v)

/-- first layer of the encoder -/
def enc1T (c : Config) (V : Vae) (h : Nat → Nat → ℚ) (i : Nat) : Nat → ℚ := lin V.enc1 c.hidden (h i)

/-- second layer of the encoder -/
def enc2T (E : NumEnv) (c : Config) (V : Vae) (enc n : Nat) (h : Nat → Nat → ℚ) (i : Nat) : Nat → ℚ :=
  lin V.enc2 enc (pos (tnorm E V.encB1 n (enc1T c V h) i))

/-- what the encoder computes before its two outputs -/
def encodedT (E : NumEnv) (c : Config) (V : Vae) (enc n : Nat) (h : Nat → Nat → ℚ) (i : Nat) : Nat → ℚ :=
  pos (tnorm E V.encB2 n (enc2T E c V enc n h) i)

/-- first layer of the decoder on latent samples `x` -/
def dec1T (V : Vae) (z : Nat) (x : Nat → Nat → ℚ) (i : Nat) : Nat → ℚ := lin V.dec1 z (x i)

/-- second layer of the decoder -/
def dec2T (E : NumEnv) (V : Vae) (z dec n : Nat) (x : Nat → Nat → ℚ) (i : Nat) : Nat → ℚ :=
  lin V.dec2 dec (pos (tnorm E V.decB1 n (dec1T V z x) i))

/-- the reconstructions -/
def decodedT (E : NumEnv) (V : Vae) (z dec n : Nat) (x : Nat → Nat → ℚ) (i v : Nat) : ℚ :=
  E.sigmoid (lin V.recon dec (pos (tnorm E V.decB2 n (dec2T E V z dec n x) i)) v)

end Verif.Spec
