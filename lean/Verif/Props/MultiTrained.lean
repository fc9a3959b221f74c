import Verif.Props.MultiTrain
import Verif.Multi.DemoNet
import Verif.Props.MultiLoss

/-!
# Theorems: trained networks

C119. What holds of every network that training produces, wherever it is stored.
-/

namespace Verif

namespace Spec

open Multi

/-- the sizes of the latent, encoder and decoder layers, where the entries of the params are proper sizes -/
structure Sizes (c : Config) (z enc dec : Nat) : Prop where
  z : ∀ k, readNat c.extra "z_dim" 100 1 = .ok k → z = k
  enc : ∀ k, readNat c.extra "enc_dim" 100 1 = .ok k → enc = k
  dec : ∀ k, readNat c.extra "dec_dim" 100 1 = .ok k → dec = k

/-- the five normalisations of a network -/
def norms (N : Net) : List BatchNorm := [N.fcNorm, N.vae.encB1, N.vae.encB2, N.vae.decB1, N.vae.decB2]

/-- no running variance is negative -/
def Sane (N : Net) : Prop := ∀ B ∈ norms N, ∀ c ∈ B.channels, 0 ≤ c.2.1

/-- Laws of torch that training relies on: a new network has the sizes of its configuration and running variances 1, and the optimizer keeps the
sizes. -/
structure TrainWF {G O : Type} (L : TrainEnv G O) : Prop where
  table : L.toTableEnv.WF
  num : L.toNumEnv.WF
  perm : ∀ g n, (L.randperm g n).1.Perm (List.range n)
  new_shape : ∀ c g, ∃ z enc dec, Sizes c z enc dec ∧ NetShape c (L.newNet c.layers g).1 z enc dec
  new_stats : ∀ l g, ∀ B ∈ norms (L.newNet l g).1, ∀ c ∈ B.channels, c.2.1 = 1
  opt_shape : ∀ o N g P, (L.optStep o N g).1 = some P → ∀ c z enc dec, NetShape c N z enc dec → NetShape c P z enc dec

/-- What holds of every network trained for a configuration: the layers have its sizes, no running variance is negative, and the latent noise of
the evaluation mode is the one drawn when the network was made from the seed. -/
def Grown {G O : Type} (L : TrainEnv G O) (c : Config) (N : Net) : Prop :=
  (∃ z enc dec, Sizes c z enc dec ∧ NetShape c N z enc dec) ∧ Sane N ∧
    N.vae.eps = (L.newNet c.layers (L.manualSeed (c.extra "seed"))).1.vae.eps

/-- the inputs of a training step: every entry of every window with its noise added -/
def Noisy (c : Config) (b : List Sample) (d : Draws) (x : List (List (List ℚ))) : Prop :=
  x.length = b.length ∧ ∀ (i : Nat) (s : Sample) (n m : List (List ℚ)), b[i]? = some s → d.noise[i]? = some n → x[i]? = some m →
    Mat c.inputSize c.dataDim m ∧ ∀ t < c.inputSize, ∀ v < c.dataDim, ent2 m t v = ent2 s.input t v + ent2 n t v

/-- running statistics of `B`, weight and bias of `P` -/
def Mixed (B P Q : BatchNorm) : Prop :=
  Q.channels.length = B.channels.length ∧ ∀ j < B.channels.length,
    let b := B.channels.getD j (0, 0, 0, 0)
    Q.channels.getD j (0, 0, 0, 0) = (b.1, b.2.1, (P.channels.getD j (0, 0, 0, 0)).2.2)

/-- The network `Q` has the parameters of `P`, the running statistics of `N'` and the latent noise of `N`. -/
def StepNet (N N' P Q : Net) : Prop :=
  Mixed N'.fcNorm P.fcNorm Q.fcNorm ∧ Mixed N'.vae.encB1 P.vae.encB1 Q.vae.encB1 ∧ Mixed N'.vae.encB2 P.vae.encB2 Q.vae.encB2 ∧
    Mixed N'.vae.decB1 P.vae.decB1 Q.vae.decB1 ∧ Mixed N'.vae.decB2 P.vae.decB2 Q.vae.decB2 ∧ Q.vae.eps = N.vae.eps ∧
    P = { Q with
      fcNorm := P.fcNorm
      vae := { Q.vae with
        encB1 := P.vae.encB1, encB2 := P.vae.encB2, decB1 := P.vae.decB1, decB2 := P.vae.decB2, eps := P.vae.eps } }

end Spec

open Multi Spec MM

/-! ### one step -/

theorem update_length (B : BatchNorm) (xs : List (List ℚ)) : (B.update xs).channels.length = B.channels.length := by simp [BatchNorm.update]

theorem batchVar_nonneg (xs : List (List ℚ)) (j : Nat) : 0 ≤ batchVar xs j := by
  unfold batchVar npMean
  refine div_nonneg (List.sum_nonneg ?_) (by positivity)
  intro v hv
  obtain ⟨x, -, rfl⟩ := List.mem_map.1 hv
  positivity

theorem update_sane {B : BatchNorm} (xs : List (List ℚ)) (hB : ∀ c ∈ B.channels, 0 ≤ c.2.1) :
    ∀ c ∈ (B.update xs).channels, 0 ≤ c.2.1 := by
  intro c hc
  simp only [BatchNorm.update] at hc
  obtain ⟨j, hj, rfl⟩ := List.mem_mapIdx.1 hc
  have h1 := hB _ (List.getElem_mem hj)
  have h2 := batchVar_nonneg xs j
  have h3 : (0 : ℚ) ≤ xs.length / (xs.length - 1) := by
    rcases Nat.eq_zero_or_pos xs.length with h0 | h0
    · rw [h0]; norm_num
    · have : (1 : ℚ) ≤ xs.length := by exact_mod_cast h0
      exact div_nonneg (by linarith) (by linarith)
  dsimp only
  have := mul_nonneg h2 h3
  linarith

theorem zipWith_length3 {α β γ} (f : α → β → γ) {l : List α} {m : List β} {n : Nat} (h1 : l.length = n) (h2 : m.length = n) :
    (List.zipWith f l m).length = n := by simp [h1, h2]

theorem trainForward_ok {E : NumEnv} {c : Config} {N N' : Net} {d : Draws} {x : List (List (List ℚ))} {o : List NetOut}
    (h : trainForward E c N d x = .ok (o, N')) :
    ∃ b0 b1 b2 b3 b4 : List (List ℚ), N' = { N with
      fcNorm := N.fcNorm.update b0
      vae := { N.vae with
        encB1 := N.vae.encB1.update b1, encB2 := N.vae.encB2.update b2, decB1 := N.vae.decB1.update b3, decB2 := N.vae.decB2.update b4 } } := by
  unfold trainForward at h
  dsimp only at h
  split at h
  · split at h
    · cases h
    · simp only [Except.ok.injEq, Prod.mk.injEq] at h
      exact ⟨_, _, _, _, _, h.2.symm⟩
  · cases h

theorem withParams_length {B P : BatchNorm} {n : Nat} (h1 : B.channels.length = n) (h2 : P.channels.length = n) :
    (B.withParams P).channels.length = n := by simp [BatchNorm.withParams, h1, h2]

theorem withParams_sane {B P : BatchNorm} (h : ∀ c ∈ B.channels, 0 ≤ c.2.1) : ∀ c ∈ (B.withParams P).channels, 0 ≤ c.2.1 := by
  intro c hc
  simp only [BatchNorm.withParams] at hc
  obtain ⟨i, hi, rfl⟩ := List.mem_iff_getElem.1 hc
  simp only [List.getElem_zipWith]
  exact h _ (List.getElem_mem _)

theorem step_trained {G O : Type} {L : TrainEnv G O} (hL : TrainWF L) {c : Config} {s : TState G O} {b : List Sample}
    (h : ∀ N, s.net = some N → Grown L c N) : ∀ N, (L.step c s b).1.net = some N → Grown L c N := by
  intro P' hP'
  unfold TrainEnv.step at hP'
  dsimp only at hP'
  rcases hs : s.net with _ | N
  · rw [hs] at hP'
    cases hP'
  · obtain ⟨⟨z, enc, dec, hsz, hN⟩, hsane, heps⟩ := h N hs
    rw [hs] at hP'
    dsimp only at hP'
    split at hP'
    · exact h P' (hs.trans hP')
    · rename_i o N' hf
      obtain ⟨b0, b1, b2, b3, b4, rfl⟩ := trainForward_ok hf
      dsimp only at hP'
      obtain ⟨P, hP, rfl⟩ := Option.map_eq_some_iff.1 hP'
      have hPs := hL.opt_shape _ _ _ _ hP c z enc dec hN
      refine ⟨⟨z, enc, dec, hsz, ?_⟩, ?_, heps⟩
      · exact { hPs with
          fcNorm := withParams_length ((update_length _ _).trans hN.fcNorm) hPs.fcNorm
          encB1 := withParams_length ((update_length _ _).trans hN.encB1) hPs.encB1
          encB2 := withParams_length ((update_length _ _).trans hN.encB2) hPs.encB2
          decB1 := withParams_length ((update_length _ _).trans hN.decB1) hPs.decB1
          decB2 := withParams_length ((update_length _ _).trans hN.decB2) hPs.decB2
          eps := hN.eps }
      · intro B hB
        simp only [norms, Net.withParams, List.mem_cons, List.not_mem_nil, or_false] at hB
        rcases hB with rfl | rfl | rfl | rfl | rfl <;> refine withParams_sane (update_sane _ (hsane _ ?_)) <;> simp [norms]

theorem trained_of {G O : Type} {L : TrainEnv G O} (hL : TrainWF L) {c : Config} {s : TState G O} (h : L.env.Trains c s) :
    ∀ N, s.net = some N → Grown L c N := by
  induction h with
  | init =>
    intro N hN
    cases hN
    obtain ⟨z, enc, dec, hsz, hs⟩ := hL.new_shape c (L.manualSeed (c.extra "seed"))
    refine ⟨⟨z, enc, dec, hsz, hs⟩, fun B hB k hk => ?_, rfl⟩
    rw [hL.new_stats _ _ B hB k hk]
    norm_num
  | shuffle n _ ih => exact ih
  | step b _ ih => exact step_trained hL ih

/-- Training as modelled satisfies the laws that the theorems about the multivariate detector assume. -/
theorem C119_laws {G O : Type} {L : TrainEnv G O} (hL : TrainWF L) : L.env.WF ∧ L.env.Exact := by
  refine ⟨⟨hL.table, hL.num, fun c ts N ht hN => ?_, fun ts n => hL.perm _ _, fun _ _ _ => rfl⟩, ?_⟩
  · obtain ⟨⟨z, enc, dec, -, hs⟩, -, -⟩ := trained_of hL ht N hN
    exact ⟨hs.fc3.1.1, hs.fc3.2⟩
  · intro c N b q hq
    show L.evalLoss c (some N) b = _
    unfold TrainEnv.evalLoss
    dsimp only
    have : batchLoss L.toNumEnv c N b = .ok q := hq
    rw [this]

theorem batch_zip (E : NumEnv) (beta : ℚ) {o : List NetOut} {b : List Sample} (hl : o.length = b.length) {k z : Nat}
    (ho : ∀ x ∈ o, x.pred.length = k ∧ x.recon.length = k ∧ x.mu.length = z ∧ x.logv.length = z) (hb : ∀ s ∈ b, s.target.length = k) :
    (criterion E (o.map (·.pred)).flatten (o.map (·.recon)).flatten (b.map (·.target)).flatten (o.map (·.mu)).flatten
      (o.map (·.logv)).flatten beta).1 = (List.zipWith (fun x s => loss E.exp beta x s.target) o b).sum := by
  rw [criterion_eq]
  induction o generalizing b with
  | nil => simp [sqErr, divergence]
  | cons x o ih =>
    cases b with
    | nil => simp at hl
    | cons s b =>
      obtain ⟨h1, h2, h3, h4⟩ := ho x (by simp)
      have h5 := hb s (by simp)
      have ih := ih (b := b) (by simpa using hl) (fun x' hx' => ho x' (by simp [hx'])) fun s' hs' => hb s' (by simp [hs'])
      simp only [List.map_cons, List.flatten_cons, List.zipWith_cons_cons, List.sum_cons]
      rw [sqErr_append (h1.trans h5.symm), sqErr_append (h2.trans h5.symm), divergence_append (h3.trans h4.symm), ← ih]
      unfold loss
      ring

theorem addNoise_noisy {c : Config} {z : Nat} {b : List Sample} {d : Draws} (hb : ∀ s ∈ b, Mat c.inputSize c.dataDim s.input)
    (hD : DrawsShape c z b.length d) : Noisy c b d (addNoise (b.map (·.input)) d.noise) := by
  refine ⟨by simp [addNoise, hD.noise.1], fun i s n m hs hn hm => ?_⟩
  have h1 := hb s (List.mem_of_getElem? hs)
  have h2 := hD.noise.2 n (List.mem_of_getElem? hn)
  have e : m = List.zipWith vadd s.input n := by
    unfold addNoise at hm
    rw [List.getElem?_zipWith_eq_some] at hm
    obtain ⟨x, y, hx, hy, rfl⟩ := hm
    rw [List.getElem?_map, hs] at hx
    cases hx
    rw [hn] at hy
    cases hy
    rfl
  subst e
  refine ⟨⟨by simp [h1.1, h2.1], ?_⟩, fun t ht v hv => ?_⟩
  · intro r hr
    obtain ⟨t, ht, rfl⟩ := List.mem_iff_getElem.1 hr
    rw [List.getElem_zipWith]
    simp [vadd, h1.2 _ (List.getElem_mem _), h2.2 _ (List.getElem_mem _)]
  · have t1 : t < s.input.length := by rw [h1.1]; exact ht
    have t2 : t < n.length := by rw [h2.1]; exact ht
    have v1 : v < (s.input[t]).length := by rw [h1.2 _ (List.getElem_mem _)]; exact hv
    have v2 : v < (n[t]).length := by rw [h2.2 _ (List.getElem_mem _)]; exact hv
    unfold ent2
    have t3 : t < (List.zipWith vadd s.input n).length := by simpa using ⟨t1, t2⟩
    rw [List.getD_eq_getElem (List.zipWith vadd s.input n) _ t3, List.getElem_zipWith, List.getD_eq_getElem s.input _ t1,
      List.getD_eq_getElem n _ t2, List.getD_eq_getElem (vadd _ _) _ (by simpa [vadd] using ⟨v1, v2⟩), List.getD_eq_getElem s.input[t] _ v1,
      List.getD_eq_getElem n[t] _ v2]
    simp [vadd]

theorem withParams_mixed {B P : BatchNorm} (h : P.channels.length = B.channels.length) : Mixed B P (B.withParams P) := by
  refine ⟨by simp [BatchNorm.withParams, h], fun j hj => ?_⟩
  have hj' : j < P.channels.length := by omega
  unfold BatchNorm.withParams
  dsimp only
  rw [List.getD_eq_getElem _ _ (by simpa using ⟨hj, hj'⟩), List.getElem_zipWith, List.getD_eq_getElem _ _ hj, List.getD_eq_getElem _ _ hj']

theorem beta_read {p : Params} {beta : ℚ} (h : BetaOf p beta) : readRat p "beta" 1 = .ok beta := by
  unfold readRat
  rcases h with ⟨h1, rfl⟩ | ⟨v, h1, h2, h3⟩
  · rw [h1]
  · rw [h1]
    simp only [h2, if_pos h3]

/-- **C119** (a step). A training step on a batch of at least two windows of the right size: the network is applied in training mode to the windows
with noise added; the loss is the sum over the samples of squared forecast error plus `beta` times squared reconstruction error and divergence. The
optimizer gets the gradient of this loss at the network; the new network has the parameters it returns, the running statistics after the batch,
and the latent noise of the old one. -/
theorem C119_step {G O : Type} {L : TrainEnv G O} (hL : TrainWF L) {c : Config} (hd : 0 < c.dataDim) (hg : 0 < c.gatWindow) (hk : 0 < c.kernel)
    (hw : c.kernel ≤ c.inputSize) {N : Net} {z enc dec : Nat} (hN : NetShape c N z enc dec) {s : TState G O} (hs : s.net = some N)
    {b : List Sample} (h2 : 2 ≤ b.length) (hb : ∀ s ∈ b, Mat c.inputSize c.dataDim s.input ∧ s.target.length = c.dataDim)
    {beta : ℚ} (hbeta : BetaOf c.extra beta) {d : Draws} {g : G} (hd' : L.draws c.layers b.length s.gen = (d, g)) (hD : DrawsShape c z b.length d) :
    ∃ x o N' P O', Noisy c b d x ∧ trainForward L.toNumEnv c N d x = .ok (o, N') ∧
      (L.step c s b).2 = .fin (List.zipWith (fun y s => loss L.exp beta y s.target) o b).sum ∧
      (∃ F : Net → Except Stop ℚ, L.optStep s.opt N (L.backward F N) = (P, O') ∧
        ∀ M z enc dec, NetShape c M z enc dec → DrawsShape c z b.length d → ∃ oM M', trainForward L.toNumEnv c M d x = .ok (oM, M') ∧
          F M = .ok (List.zipWith (fun y s => loss L.exp beta y s.target) oM b).sum) ∧
      (L.step c s b).1.gen = g ∧ (L.step c s b).1.opt = O' ∧
      match P, (L.step c s b).1.net with
      | some P, some Q => StepNet N N' P Q
      | none, none => True
      | _, _ => False := by
  have hx := addNoise_noisy (fun s hs => (hb s hs).1) hD
  set x := addNoise (b.map (·.input)) d.noise with hxdef
  have hne : x ≠ [] := by
    intro e
    have := hx.1
    rw [e] at this
    simp at this
    omega
  have hfit : ∀ m ∈ x, c.kernel ≤ m.length ∧ ∀ r ∈ m, r.length = c.dataDim := by
    intro m hm
    obtain ⟨i, hi, rfl⟩ := List.mem_iff_getElem.1 hm
    have hi' : i < b.length := by rw [← hx.1]; exact hi
    have hM := (hx.2 i _ _ _ (List.getElem?_eq_getElem hi') (List.getElem?_eq_getElem (by rw [hD.noise.1]; exact hi'))
      (List.getElem?_eq_getElem hi)).1
    exact ⟨by rw [hM.1]; exact hw, hM.2⟩
  have hacc : ∀ M, ∃ r, trainForward L.toNumEnv c M d x = .ok r := fun M =>
    (C119_accepts L.toNumEnv c M d x).1 hfit (by rw [hx.1]; omega)
  have hloss : ∀ M z enc dec oM M', NetShape c M z enc dec → DrawsShape c z b.length d → trainForward L.toNumEnv c M d x = .ok (oM, M') →
      trainLoss L.toNumEnv c d b M = .ok (List.zipWith (fun y s => loss L.exp beta y s.target) oM b).sum := by
    intro M z' enc' dec' oM M' hM hDM hf
    obtain ⟨p, A, B, u, -, hid, -, e, mu, lv, y, -, -, -, -, hol, ho, -⟩ :=
      C119_forward hd hg hk hM hne (by rw [hx.1]; exact hDM) hf
    unfold trainLoss
    rw [beta_read hbeta, ← hxdef, hf]
    refine congrArg Except.ok (batch_zip L.toNumEnv beta (hol.trans hx.1) (k := c.dataDim) (z := z') ?_ fun s hs => (hb s hs).2)
    intro out hout
    obtain ⟨i, hi⟩ := List.mem_iff_getElem?.1 hout
    obtain ⟨h1, h2, h3, h4, -⟩ := ho i out hi
    rw [h1, h2, h3, h4]
    simp
  obtain ⟨⟨o, N'⟩, hf⟩ := hacc N
  rcases hP : L.optStep s.opt N (L.backward (trainLoss L.toNumEnv c d b) N) with ⟨P, O'⟩
  have hstep : L.step c s b = (⟨g, O', P.map N'.withParams⟩, .fin (List.zipWith (fun y s => loss L.exp beta y s.target) o b).sum) := by
    unfold TrainEnv.step
    rw [hd']
    dsimp only
    rw [hs]
    dsimp only
    rw [← hxdef, hf]
    show ((⟨g, (L.optStep s.opt N (L.backward (trainLoss L.toNumEnv c d b) N)).2,
      (L.optStep s.opt N (L.backward (trainLoss L.toNumEnv c d b) N)).1.map N'.withParams⟩ : TState G O), _) = _
    rw [hP]
    dsimp only
    rw [hloss N z enc dec o N' hN hD hf]
  rw [hstep]
  refine ⟨x, o, N', P, O', hx, hf, rfl, ⟨_, hP, ?_⟩, rfl, rfl, ?_⟩
  · intro M z' enc' dec' hM hDM
    obtain ⟨⟨oM, M'⟩, hfM⟩ := hacc M
    exact ⟨oM, M', hfM, hloss M z' enc' dec' oM M' hM hDM hfM⟩
  · obtain ⟨b0, b1, b2, b3, b4, rfl⟩ := trainForward_ok hf
    cases P with
    | none => trivial
    | some P =>
      have hPs := hL.opt_shape _ _ _ _ (by rw [hP]) c z enc dec hN
      refine ⟨?_, ?_, ?_, ?_, ?_, rfl, rfl⟩ <;> refine withParams_mixed ?_ <;> rw [update_length]
      · rw [hPs.fcNorm, hN.fcNorm]
      · rw [hPs.encB1, hN.encB1]
      · rw [hPs.encB2, hN.encB2]
      · rw [hPs.decB1, hN.decB1]
      · rw [hPs.decB2, hN.decB2]

/-! ### every stored network -/

/-- every network of the detector and of the checkpoints satisfies `Q` -/
def Nets (Q : Config → Net → Prop) (w : World) : Prop :=
  (∀ m N, w.det.model = some m → m.net = some N → Q m.config N) ∧ ∀ x k N, w.disk x = .ckpt k → k.net = some N → Q k.config N

theorem processData_nets {TS} (E : MEnv TS) (Q : Config → Net → Prop) (data : MData) : Holds (Nets Q) (processData E data) fun _ => True := by
  unfold processData
  split
  · exact Holds.throw
  · refine Holds.get.bind fun w _ => ?_
    refine Holds.of.bind fun sizes hs => ?_
    refine (Holds.modifyParams fun w h => h).bind fun _ _ => ?_
    refine (Holds.modifyParams fun w h => h).bind fun _ _ => ?_
    refine Holds.of.bind fun proc _ => ?_
    split
    · refine Holds.of.bind fun t ht => ?_
      refine (Holds.modifyParams fun w h => h).bind fun _ _ => ?_
      refine Holds.get.bind fun w _ => ?_
      refine Holds.of.bind fun c hc => ?_
      exact Holds.pure.imp fun _ _ => trivial
    · intro w hw
      exact ⟨hw, fun a ha => by cases ha⟩

theorem loadCheckpoint_nets (Q : Config → Net → Prop) (p : Option String) : Holds (Nets Q) (loadCheckpoint p) fun _ => True := by
  unfold loadCheckpoint
  refine Holds.get.bind fun w0 hw0 => ?_
  split
  · exact Holds.throw
  · split
    · exact Holds.throw
    · exact Holds.throw
    · rename_i k hk
      refine Holds.modifyDet fun w hw => ⟨fun m N hm hN => ?_, hw.2⟩
      cases hm
      exact hw0.2 _ _ _ hk hN

theorem epoch_nets {TS} {E : MEnv TS} {Q : Config → Net → Prop} {c : Config} (hQ : ∀ ts N, E.Trains c ts → E.weights c ts = some N → Q c N)
    (train val : List Sample) {s : TS × PyFloat} (hs : E.Trains c s.1) : Holds (Nets Q) (epoch E c train val s) fun s' => E.Trains c s'.1 := by
  have ht := trainEpoch_trains train hs
  unfold epoch
  split
  · exact Holds.throw
  · split
    · exact Holds.throw
    · dsimp only
      split
      · refine (Holds.modifyDet fun w hw => ⟨fun m N hm hN => ?_, hw.2⟩).bind fun _ _ => ?_
        · have hsave : Holds (Nets Q) (saveCheckpoint c (E.weights c (trainEpoch E c train s.1).1)) fun _ => True := by
            unfold saveCheckpoint
            refine Holds.get.bind fun w0 _ => ?_
            intro w hw
            refine ⟨⟨hw.1, fun x k N hk hN => ?_⟩, fun _ _ => trivial⟩
            simp only [MM.writeFile] at hk
            split at hk
            · cases hk
              exact hQ _ _ ht hN
            · exact hw.2 _ _ _ hk hN
          exact hsave.bind fun _ _ => Holds.pure.imp fun _ h => h ▸ ht
        · cases hm
          exact hQ _ _ ht hN
      · exact Holds.pure.imp fun _ h => h ▸ ht

theorem epochs_nets {TS} {E : MEnv TS} {Q : Config → Net → Prop} {c : Config} (hQ : ∀ ts N, E.Trains c ts → E.weights c ts = some N → Q c N)
    (train val : List Sample) (n : Nat) {s : TS × PyFloat} (hs : E.Trains c s.1) : Holds (Nets Q) (epochs E c train val n s) fun _ => True := by
  induction n generalizing s with
  | zero => exact Holds.pure.imp fun _ _ => trivial
  | succ n ih =>
    unfold epochs
    exact (epoch_nets hQ train val hs).bind fun s' hs' => ih hs'

theorem fit_nets {TS} {E : MEnv TS} {Q : Config → Net → Prop} (hQ : ∀ c ts N, E.Trains c ts → E.weights c ts = some N → Q c N) (data : MData) :
    Holds (Nets Q) (fit E data) fun _ => True := by
  unfold fit
  refine (processData_nets E Q data).bind fun r _ => ?_
  obtain ⟨f, t, c0⟩ := r
  dsimp only
  refine (Holds.modifyDet fun w hw => hw).bind fun _ _ => ?_
  refine Holds.of.bind fun pct hpct => ?_
  refine (Holds.modifyDet fun w hw => hw).bind fun _ _ => ?_
  split
  · exact Holds.throw
  · refine (Holds.modifyDet fun w hw => hw).bind fun _ _ => ?_
    refine Holds.of.bind fun ts _ => ?_
    refine Holds.of.bind fun vs _ => ?_
    split
    · exact Holds.throw
    · refine (epochs_nets (hQ _) _ _ _ .init).bind fun _ _ => ?_
      refine (loadCheckpoint_nets Q _).bind fun _ _ => ?_
      refine Holds.get.bind fun w _ => ?_
      refine Holds.of.bind fun r _ => ?_
      exact Holds.modifyDet fun w hw => hw

theorem predict_nets {TS} (E : MEnv TS) (Q : Config → Net → Prop) (data : MData) : Holds (Nets Q) (Multi.predict E data) fun _ => True := by
  unfold Multi.predict
  refine (processData_nets E Q data).bind fun r _ => ?_
  obtain ⟨f, t, c0⟩ := r
  dsimp only
  have hens : Holds (Nets Q) ensureModel fun _ => True := by
    intro w hw
    refine ⟨?_, fun _ _ => trivial⟩
    unfold ensureModel
    split
    · exact hw
    · have := (loadCheckpoint_nets Q w.det.modelPath w hw).1
      split <;> rename_i h <;> rw [h] at this <;> exact this
  refine hens.bind fun _ _ => ?_
  refine Holds.get.bind fun w _ => ?_
  exact Holds.of.imp fun _ _ => trivial

theorem reachable_nets {TS} {E : MEnv TS} {Q : Config → Net → Prop} (hQ : ∀ c ts N, E.Trains c ts → E.weights c ts = some N → Q c N)
    {w : World} (h : Reachable E w) : Nets Q w := by
  induction h with
  | start disk p h => exact ⟨fun m N hm => (by cases hm), fun x k N hk => absurd hk (h x k)⟩
  | params p _ ih => exact ih
  | new _ ih => exact ⟨fun m N hm => (by cases hm), ih.2⟩
  | path s _ ih => exact ih
  | damage s f h _ ih =>
    refine ⟨ih.1, fun x k N hk => ?_⟩
    simp only at hk
    split at hk
    · exact absurd hk (h k)
    · exact ih.2 _ _ _ hk
  | fit data _ ih => exact (fit_nets hQ data _ ih).1
  | predict data _ ih => exact (predict_nets E Q data _ ih).1
  | load s _ ih => exact (loadCheckpoint_nets Q s _ ih).1

/-- **C119** (stored networks). Whatever sequence of calls a program makes: every network in the detector or in a checkpoint has the layer sizes of
the configuration stored with it, no negative running variance, and the latent noise that the seed and the sizes of that configuration determine. -/
theorem C119_stored {G O : Type} {L : TrainEnv G O} (hL : TrainWF L) {w : World} (h : Reachable L.env w) :
    (∀ m N, w.det.model = some m → m.net = some N → Grown L m.config N) ∧
      ∀ x k N, w.disk x = .ckpt k → k.net = some N → Grown L k.config N :=
  reachable_nets (fun _ _ _ ht hN => trained_of hL ht _ hN) h

/-- **C119** (random numbers). The generator is seeded once. The new network takes the first numbers; each epoch takes its order from the generator
as the previous epoch left it (the first, as the new network left it), and the first batch goes on from there. Steps follow in that order, on full
batches. -/
theorem C119_random {G O : Type} {L : TrainEnv G O} (hL : TrainWF L) {c : Config} (hc : 0 < c.batchSize) (ts : List Sample) :
    (∀ N g, L.newNet c.layers (L.manualSeed (c.extra "seed")) = (N, g) → stateAfter L.env c ts 0 = ⟨g, L.newOpt (c.extra "lr"), some N⟩) ∧
    ∀ k, ∃ (order : List Nat) (g : G) (batches : List (List Sample)) (rest : List Sample),
      L.randperm (stateAfter L.env c ts k).gen ts.length = (order, g) ∧ order.Perm (List.range ts.length) ∧
      batches.flatten ++ rest = order.filterMap (ts[·]?) ∧ (∀ b ∈ batches, b.length = c.batchSize) ∧ rest.length < c.batchSize ∧
      stateAfter L.env c ts (k + 1) = batches.foldl (fun s b => (L.step c s b).1)
        ⟨g, (stateAfter L.env c ts k).opt, (stateAfter L.env c ts k).net⟩ := by
  refine ⟨fun N g h => ?_, fun k => ?_⟩
  · show L.init c = _
    unfold TrainEnv.init
    rw [h]
  · obtain ⟨order, g, ho⟩ : ∃ order g, L.randperm (stateAfter L.env c ts k).gen ts.length = (order, g) := ⟨_, _, rfl⟩
    have hp : order.Perm (List.range ts.length) := by
      have := hL.perm (stateAfter L.env c ts k).gen ts.length
      rwa [ho] at this
    set l := order.filterMap (ts[·]?) with hl
    have hb := trainBatches_spec hc l
    refine ⟨order, g, (chunk c.batchSize l).filter fun b => b.length = c.batchSize, l.drop (l.length / c.batchSize * c.batchSize), ho, hp, ?_,
      ?_, ?_, ?_⟩
    · rw [hb, List.take_append_drop]
    · intro b hb
      simpa using (List.mem_filter.1 hb).2
    · rw [List.length_drop]
      have h1 := Nat.div_add_mod l.length c.batchSize
      have h2 := Nat.mod_lt l.length hc
      rw [Nat.mul_comm] at h1
      omega
    · show (trainEpoch L.env c ts (stateAfter L.env c ts k)).1 = _
      have hs : L.env.shuffle (stateAfter L.env c ts k) ts.length =
          (order, ⟨g, (stateAfter L.env c ts k).opt, (stateAfter L.env c ts k).net⟩) := by
        show ((L.randperm (stateAfter L.env c ts k).gen ts.length).1,
          (⟨(L.randperm (stateAfter L.env c ts k).gen ts.length).2, _, _⟩ : TState G O)) = _
        rw [ho]
      unfold trainEpoch
      rw [hs]
      dsimp only
      rw [trainEpoch_fst]
      rfl

/-! ### a concrete case -/

/-- an entry of the params read as a size -/
def sizeFrom (v : Option PyVal) : Nat :=
  match v with
  | none => 100
  | some v => match v.asInt? with
    | some i => i.toNat
    | none => 1

def flat (out inp : Nat) (q : ℚ) : Linear := ⟨List.replicate out (List.replicate inp q), List.replicate out q⟩

def freshNorm (k : Nat) : BatchNorm := ⟨List.replicate k (0, 1, 1, 0)⟩

/-- a new network -/
def freshNet (l : Layers) : Net :=
  let z := sizeFrom l.zDim
  let enc := sizeFrom l.encDim
  let dec := sizeFrom l.decDim
  { featKey := List.replicate l.gatWindow 1, featQuery := List.replicate l.gatWindow 1
    timeKey := List.replicate l.dataDim 1, timeQuery := List.replicate l.dataDim 1
    gru := ⟨flat l.hidden (3 * l.dataDim) (1 / 5), flat l.hidden (3 * l.dataDim) 0, flat l.hidden (3 * l.dataDim) (1 / 10), flat l.hidden l.hidden 0,
      flat l.hidden l.hidden 0, flat l.hidden l.hidden 0⟩
    fcNorm := freshNorm l.hidden, fc1 := flat l.hidden l.hidden 1, fc2 := flat l.hidden l.hidden 1, fc3 := flat l.dataDim l.hidden (1 / 10)
    vae := ⟨flat enc l.hidden 1, freshNorm enc, flat enc enc 1, freshNorm enc, flat dec z 1, freshNorm dec, flat dec dec 1, freshNorm dec, flat z enc 1,
      flat z enc 1, flat l.dataDim dec 1, List.replicate z (1 / 3)⟩ }

/-- training whose optimizer raises the output biases by a tenth; the generator counts steps -/
def demoT : TrainEnv Nat Unit where
  toTableEnv := demoTable
  toNumEnv := demoNum
  parseInt _ := none
  joinPath s := s ++ "/best_multi_ad_model.pt"
  emptyShuffle := true
  manualSeed _ := 0
  newNet l g := (freshNet l, g)
  randperm g n := (List.range n, g)
  draws l n g := (⟨List.replicate n (List.replicate l.inputSize (List.replicate l.dataDim (1 / 20))),
    List.replicate n (List.replicate l.gatWindow (List.replicate l.gatWindow true)),
    List.replicate n (List.replicate l.dataDim (List.replicate l.dataDim (g % 2 == 0))), List.replicate n (List.replicate (sizeFrom l.zDim) 1)⟩, g + 1)
  newOpt _ := ()
  backward _ N := N
  optStep o N _ := (some { N with fc3 := ⟨N.fc3.weight, N.fc3.bias.map (· + 1 / 10)⟩ }, o)
  otherLoss _ _ _ := .nan

theorem flat_shape (out inp : Nat) (q : ℚ) : LinShape (flat out inp q) out inp := by
  refine ⟨⟨by simp [flat], fun r hr => ?_⟩, by simp [flat]⟩
  simp only [flat] at hr
  rw [(List.mem_replicate.1 hr).2, List.length_replicate]

theorem sizeFrom_read {p : Params} {key : String} {k : Nat} (h : readNat p key 100 1 = .ok k) : sizeFrom (p key) = k := by
  unfold readNat at h
  unfold sizeFrom
  split at h
  · rename_i h0
    cases h
    rw [h0]
  · rename_i v h0
    rw [h0]
    dsimp only
    split at h
    · rename_i i hi
      split at h
      · cases h
        rw [hi]
      · cases h
    · cases h

theorem demoT_wf : TrainWF demoT where
  table := demoTable_wf
  num := demoNum_wf
  perm _ _ := List.Perm.refl _
  new_shape c g := by
    refine ⟨sizeFrom (c.extra "z_dim"), sizeFrom (c.extra "enc_dim"), sizeFrom (c.extra "dec_dim"),
      ⟨fun _ => sizeFrom_read, fun _ => sizeFrom_read, fun _ => sizeFrom_read⟩, ?_⟩
    constructor <;> first | exact flat_shape _ _ _ | simp [demoT, freshNet, freshNorm, Config.layers]
  new_stats l g B hB c hc := by
    simp only [norms, demoT, freshNet, freshNorm, List.mem_cons, List.not_mem_nil, or_false] at hB
    rcases hB with rfl | rfl | rfl | rfl | rfl <;> rw [(List.mem_replicate.1 hc).2]
  opt_shape o N g P hP c z enc dec hN := by
    cases hP
    exact { hN with fc3 := ⟨hN.fc3.1, by simp [hN.fc3.2]⟩ }

/-- small layers -/
def trainParams : Params := fun k =>
  if k = "z_dim" then some (.int 2) else if k = "enc_dim" then some (.int 2) else if k = "dec_dim" then some (.int 1)
  else if k = "epochs" then some (.int 2) else demoParams k

/-- two epochs of training: the detector is trained, its running means have moved -/
def trainedWorld : World := (fit demoT.env (.frame demoTrain) ⟨{}, fun _ => .missing, trainParams⟩).1

/-- the running statistics and the output bias of the trained network -/
example : (match trainedWorld.det.model with
    | some ⟨_, some N⟩ => decide (N.vae.eps = [1 / 3, 1 / 3]) && N.fcNorm.channels.all (fun c => decide (0 < c.1)) &&
      decide (N.fc3.bias = [2 / 5, 2 / 5])
    | _ => false) = true := by decide +kernel

theorem trainedWorld_reachable : Reachable demoT.env trainedWorld :=
  .fit _ (.start _ _ fun _ _ h => by cases h)

/-- its network is one that `C119_stored` speaks of -/
example : ∃ m N, trainedWorld.det.model = some m ∧ m.net = some N ∧ Grown demoT m.config N := by
  have h : (match trainedWorld.det.model with
    | some ⟨_, some _⟩ => true
    | _ => false) = true := by decide +kernel
  split at h
  · rename_i c N hm
    exact ⟨_, N, hm, rfl, (C119_stored demoT_wf trainedWorld_reachable).1 _ N hm rfl⟩
  · cases h

/-- random numbers for two windows: one entry of each attention map is dropped -/
def twoDraws : Draws :=
  ⟨List.replicate 2 (List.replicate 5 [1 / 20, -1 / 20]), List.replicate 2 [[true, false, true], [true, true, true], [true, true, true]],
    List.replicate 2 [[true, true], [false, true]], [[1], [-1 / 2]]⟩

def otherWindow : List (List ℚ) := [[1, 0], [1 / 2, 1], [1, 0], [1, 1 / 2], [0, 1]]

theorem twoDraws_shape : DrawsShape netConfig 1 2 twoDraws := by constructor <;> decide +kernel

/-- `C119_forward` applies to a run of the network on two windows, in which the running means move -/
example : ∃ o N', trainForward demoNum netConfig fullNet twoDraws [netWindow, otherWindow] = .ok (o, N') ∧
    N'.fcNorm.channels ≠ fullNet.fcNorm.channels ∧
    ∃ p A B u, TrainFront demoNum netConfig fullNet otherWindow twoDraws.timeKeep[1] twoDraws.featKeep[1] p A B u := by
  have h : (match trainForward demoNum netConfig fullNet twoDraws [netWindow, otherWindow] with
    | .ok (_, N') => decide (N'.fcNorm.channels ≠ fullNet.fcNorm.channels)
    | .error _ => false) = true := by decide +kernel
  split at h
  · rename_i o N' hf
    obtain ⟨p, A, B, u, hF, -⟩ := C119_forward (x := [netWindow, otherWindow]) (by decide) (by decide) (by decide) fullNet_shape (by simp)
      twoDraws_shape hf
    exact ⟨o, N', hf, of_decide_eq_true h, p 1, A 1, B 1, u 1, hF 1 _ rfl⟩
  · cases h

/-- the hypotheses of `C119_step` -/
example : ∃ (c : Config) (N : Net) (z enc dec : Nat) (s : TState Nat Unit) (b : List Sample) (d : Draws) (g : Nat), c.kernel ≤ c.inputSize ∧
    NetShape c N z enc dec ∧ s.net = some N ∧ 2 ≤ b.length ∧ (∀ s ∈ b, Mat c.inputSize c.dataDim s.input ∧ s.target.length = c.dataDim) ∧
    BetaOf c.extra 1 ∧ demoT.draws c.layers b.length s.gen = (d, g) ∧ DrawsShape c z b.length d := by
  let c : Config := { netConfig with extra := trainParams }
  refine ⟨c, freshNet c.layers, 2, 2, 1, ⟨0, (), some (freshNet c.layers)⟩, [⟨netWindow, [0, 1]⟩, ⟨otherWindow, [1, 1]⟩], _, _, by decide, ?_, rfl,
    by decide, ?_, .inl ⟨by decide, rfl⟩, rfl, ?_⟩
  · constructor <;> decide +kernel
  · decide +kernel
  · constructor <;> decide +kernel

/-- `C119_random`: three samples in batches of two; one step is taken in the first epoch -/
example : ∃ (c : Config) (ts : List Sample), ts.length = 3 ∧ c.batchSize = 2 ∧
    (stateAfter demoT.env c ts 0).gen = 0 ∧ (stateAfter demoT.env c ts 1).gen = 1 ∧ 0 < c.batchSize := by
  refine ⟨{ netConfig with extra := trainParams, batchSize := 2 },
    [⟨netWindow, [0, 1]⟩, ⟨otherWindow, [1, 1]⟩, ⟨netWindow, [1, 1]⟩], ?_⟩
  decide +kernel

end Verif
