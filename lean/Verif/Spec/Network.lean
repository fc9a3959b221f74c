import Verif.Multi.Module
import Mathlib.Algebra.BigOperators.Ring.Finset
import Mathlib.Order.Bounds.Basic

/-!
# The forecasting network in formulas

What the layers compute, entry by entry. Of the model only the records of weights and the library functions are used.
-/

namespace Verif.Spec

open Multi

/-- entry of a vector; zero outside -/
def ent (l : List ℚ) (i : Nat) : ℚ := l.getD i 0

/-- entry of a matrix; zero outside -/
def ent2 (m : List (List ℚ)) (i j : Nat) : ℚ := (m.getD i []).getD j 0

/-- a matrix of `a` rows and `b` columns -/
def Mat (a b : Nat) (m : List (List ℚ)) : Prop := m.length = a ∧ ∀ r ∈ m, r.length = b

/-- a linear layer from `inp` to `out` numbers -/
def LinShape (L : Linear) (out inp : Nat) : Prop := Mat out inp L.weight ∧ L.bias.length = out

/-- `W x + b` -/
def lin (L : Linear) (inp : Nat) (x : Nat → ℚ) (i : Nat) : ℚ := ∑ j ∈ Finset.range inp, ent2 L.weight i j * x j + ent L.bias i

/-- batch normalisation with running statistics -/
def bnorm (E : NumEnv) (B : BatchNorm) (x : Nat → ℚ) (i : Nat) : ℚ :=
  let c := B.channels.getD i (0, 0, 0, 0)
  (x i - c.1) / E.sqrt (c.2.1 + 1 / 100000) * c.2.2.1 + c.2.2.2

/-- positive part -/
def pos (x : Nat → ℚ) (i : Nat) : ℚ := max 0 (x i)

/-- moving average of `k` rows of variable `v`, starting at row `i` -/
def smooth (s : List (List ℚ)) (k v i : Nat) : ℚ := (∑ j ∈ Finset.range k, ent2 s (i + j) v) / k

/-- `m` positions are pooled to `w` bins of equal length: position `i` meets bin `t` when the intervals `[i, i+1)` and `[t m/w, (t+1) m/w)`
overlap -/
def Meets (m w t i : Nat) : Prop := i < m ∧ t * m < (i + 1) * w ∧ i * w < (t + 1) * m

/-- softmax of `n` logits relative to their maximum `M` -/
def IsSoftmax (E : NumEnv) (n : Nat) (logit a : Nat → ℚ) : Prop :=
  ∃ M, IsGreatest {x | ∃ j < n, x = logit j} M ∧ ∀ j < n, a j = E.exp (logit j - M) / ∑ k ∈ Finset.range n, E.exp (logit k - M)

/-- leaky ReLU of slope 0.2 -/
def leak (x : ℚ) : ℚ := max x (x / 5)

/-- the hidden state of the recurrent layer after `t` steps -/
def gruState (E : NumEnv) (G : Gru) (inp hid : Nat) (u : Nat → Nat → ℚ) : Nat → Nat → ℚ
  | 0, _ => 0
  | t + 1, j =>
    let h := gruState E G inp hid u t
    let r := E.sigmoid (lin G.ir inp (u t) j + lin G.hr hid h j)
    let z := E.sigmoid (lin G.iz inp (u t) j + lin G.hz hid h j)
    let n := E.tanh (lin G.inn inp (u t) j + r * lin G.hn hid h j)
    (1 - z) * n + z * h j

/-- the sizes the constructor gives the layers (`module.py:56-85, 141-172`) -/
structure NetShape (c : Config) (N : Net) (z enc dec : Nat) : Prop where
  featKey : N.featKey.length = c.gatWindow
  featQuery : N.featQuery.length = c.gatWindow
  timeKey : N.timeKey.length = c.dataDim
  timeQuery : N.timeQuery.length = c.dataDim
  ir : LinShape N.gru.ir c.hidden (3 * c.dataDim)
  iz : LinShape N.gru.iz c.hidden (3 * c.dataDim)
  inn : LinShape N.gru.inn c.hidden (3 * c.dataDim)
  hr : LinShape N.gru.hr c.hidden c.hidden
  hz : LinShape N.gru.hz c.hidden c.hidden
  hn : LinShape N.gru.hn c.hidden c.hidden
  fcNorm : N.fcNorm.channels.length = c.hidden
  fc1 : LinShape N.fc1 c.hidden c.hidden
  fc2 : LinShape N.fc2 c.hidden c.hidden
  fc3 : LinShape N.fc3 c.dataDim c.hidden
  enc1 : LinShape N.vae.enc1 enc c.hidden
  encB1 : N.vae.encB1.channels.length = enc
  enc2 : LinShape N.vae.enc2 enc enc
  encB2 : N.vae.encB2.channels.length = enc
  mu : LinShape N.vae.mu z enc
  logv : LinShape N.vae.logv z enc
  dec1 : LinShape N.vae.dec1 dec z
  decB1 : N.vae.decB1.channels.length = dec
  dec2 : LinShape N.vae.dec2 dec dec
  decB2 : N.vae.decB2.channels.length = dec
  recon : LinShape N.vae.recon c.dataDim dec
  eps : N.vae.eps.length = z

/-- The front of the network on one window: `p v t` is the pooled series of variable `v`, `A` the attention of variables to variables, `B` the
attention of bins to bins, `u t` the input of the recurrent layer at step `t`. -/
structure Front (E : NumEnv) (c : Config) (N : Net) (s : List (List ℚ)) (p A B u : Nat → Nat → ℚ) : Prop where
  pooled : ∀ v < c.dataDim, ∀ t < c.gatWindow,
    IsGreatest {x | ∃ i, Meets (s.length + 1 - c.kernel) c.gatWindow t i ∧ x = smooth s c.kernel v i} (p v t)
  overVars : ∀ v < c.dataDim, IsSoftmax E c.dataDim (fun u => leak (∑ t ∈ Finset.range c.gatWindow, p v t * ent N.featKey t +
    ∑ t ∈ Finset.range c.gatWindow, p u t * ent N.featQuery t)) (A v)
  overBins : ∀ t < c.gatWindow, IsSoftmax E c.gatWindow (fun r => leak (∑ v ∈ Finset.range c.dataDim, p v t * ent N.timeKey v +
    ∑ v ∈ Finset.range c.dataDim, p v r * ent N.timeQuery v)) (B t)
  input1 : ∀ t < c.gatWindow, ∀ v < c.dataDim, u t v = p v t
  input2 : ∀ t < c.gatWindow, ∀ v < c.dataDim, u t (c.dataDim + v) = ∑ w ∈ Finset.range c.dataDim, A v w * p w t
  input3 : ∀ t < c.gatWindow, ∀ v < c.dataDim, u t (2 * c.dataDim + v) = ∑ r ∈ Finset.range c.gatWindow, B t r * p v r

/-- the forecast from the last hidden state `h` -/
def forecast (E : NumEnv) (c : Config) (N : Net) (h : Nat → ℚ) (v : Nat) : ℚ :=
  E.sigmoid (lin N.fc3 c.hidden (pos (lin N.fc2 c.hidden (pos (lin N.fc1 c.hidden (bnorm E N.fcNorm (pos h)))))) v)

/-- what the encoder computes before its two outputs -/
def encoded (E : NumEnv) (c : Config) (V : Vae) (enc : Nat) (h : Nat → ℚ) : Nat → ℚ :=
  pos (bnorm E V.encB2 (lin V.enc2 enc (pos (bnorm E V.encB1 (lin V.enc1 c.hidden h)))))

/-- the reconstruction from the latent variable -/
def decoded (E : NumEnv) (V : Vae) (z dec : Nat) (x : Nat → ℚ) (v : Nat) : ℚ :=
  E.sigmoid (lin V.recon dec (pos (bnorm E V.decB2 (lin V.dec2 dec (pos (bnorm E V.decB1 (lin V.dec1 z x)))))) v)

end Verif.Spec
