import Verif.Props.MultiFit

/-!
# The validation loss (C89)
-/

namespace Verif

open Verif.Multi Spec

namespace Spec

/-- sum of squared errors -/
def sqErr : List ℚ → List ℚ → ℚ
  | a :: as, b :: bs => (a - b) ^ 2 + sqErr as bs
  | _, _ => 0

/-- divergence of a normal distribution with means `mu` and log-variances `logv` from the standard one -/
def divergence (exp : ℚ → ℚ) : List ℚ → List ℚ → ℚ
  | m :: ms, l :: ls => (m ^ 2 + exp l - 1 - l) / 2 + divergence exp ms ls
  | _, _ => 0

/-- the loss of one forecast -/
def loss (exp : ℚ → ℚ) (beta : ℚ) (o : NetOut) (target : List ℚ) : ℚ :=
  sqErr o.pred target + beta * (sqErr o.recon target + divergence exp o.mu o.logv)

/-- the weight of the autoencoder in the loss: the params entry, which is a nonnegative number, or 1 -/
def BetaOf (p : Params) (beta : ℚ) : Prop :=
  (p "beta" = none ∧ beta = 1) ∨ ∃ v, p "beta" = some v ∧ v.asNumber? = some (.fin beta) ∧ 0 ≤ beta

end Spec

/-- the last layers have the sizes the constructor gives them (`module.py:161-172`) -/
structure LossShape (c : Config) (N : Net) : Prop where
  pred : N.fc3.weight.length = c.dataDim ∧ N.fc3.bias.length = c.dataDim
  recon : N.vae.recon.weight.length = c.dataDim ∧ N.vae.recon.bias.length = c.dataDim
  latent : N.vae.mu.weight.length = N.vae.logv.weight.length ∧ N.vae.mu.bias.length = N.vae.logv.bias.length

theorem mseSum_eq (a b : List ℚ) : mseSum a b = sqErr a b := by
  induction a generalizing b with
  | nil => cases b <;> rfl
  | cons x a ih =>
    cases b with
    | nil => rfl
    | cons y b =>
      have := ih b
      unfold mseSum at this ⊢
      rw [List.zipWith_cons_cons, List.sum_cons, this, sqErr]

theorem sqErr_append {a b a' b' : List ℚ} (h : a.length = b.length) : sqErr (a ++ a') (b ++ b') = sqErr a b + sqErr a' b' := by
  induction a generalizing b with
  | nil =>
    cases b with
    | nil => simp [sqErr]
    | cons => simp at h
  | cons x a ih =>
    cases b with
    | nil => simp at h
    | cons y b => rw [List.cons_append, List.cons_append, sqErr, sqErr, ih (by simpa using h), add_assoc]

theorem divergence_append {exp : ℚ → ℚ} {a b a' b' : List ℚ} (h : a.length = b.length) :
    divergence exp (a ++ a') (b ++ b') = divergence exp a b + divergence exp a' b' := by
  induction a generalizing b with
  | nil =>
    cases b with
    | nil => simp [divergence]
    | cons => simp at h
  | cons x a ih =>
    cases b with
    | nil => simp at h
    | cons y b => rw [List.cons_append, List.cons_append, divergence, divergence, ih (by simpa using h), add_assoc]

theorem kl_eq (exp : ℚ → ℚ) (mu logv : List ℚ) :
    -(1 / 2) * (List.zipWith (fun l m => 1 + l - m ^ 2 - exp l) logv mu).sum = divergence exp mu logv := by
  induction mu generalizing logv with
  | nil => cases logv <;> simp [divergence]
  | cons m mu ih =>
    cases logv with
    | nil => simp [divergence]
    | cons l logv =>
      rw [List.zipWith_cons_cons, List.sum_cons, divergence, ← ih]
      ring

theorem criterion_eq (E : NumEnv) (pred recon target mu logv : List ℚ) (beta : ℚ) :
    (criterion E pred recon target mu logv beta).1 =
      sqErr pred target + beta * (sqErr recon target + divergence E.exp mu logv) := by
  unfold criterion
  dsimp only
  rw [kl_eq, mseSum_eq, mseSum_eq]
  ring

theorem batch_sum (E : NumEnv) (beta : ℚ) (f : Sample → NetOut) (b : List Sample)
    (h : ∀ s ∈ b, (f s).pred.length = s.target.length ∧ (f s).recon.length = s.target.length ∧ (f s).mu.length = (f s).logv.length) :
    (criterion E ((b.map f).map (·.pred)).flatten ((b.map f).map (·.recon)).flatten (b.map (·.target)).flatten
      ((b.map f).map (·.mu)).flatten ((b.map f).map (·.logv)).flatten beta).1 =
      (b.map fun s => loss E.exp beta (f s) s.target).sum := by
  rw [criterion_eq]
  induction b with
  | nil => simp [sqErr, divergence]
  | cons s b ih =>
    have h1 := h s (by simp)
    have ih := ih fun s' hs' => h s' (by simp [hs'])
    simp only [List.map_cons, List.flatten_cons, List.sum_cons]
    rw [sqErr_append h1.1, sqErr_append h1.2.1, divergence_append h1.2.2, ← ih]
    unfold loss
    ring

theorem linear_length (L : Linear) (x : List ℚ) : (L.apply x).length = min L.weight.length L.bias.length := by
  simp [Linear.apply, vadd]

theorem shape_out {E : NumEnv} {c : Config} {N : Net} (hN : LossShape c N) (s : List (List ℚ)) :
    (sampleOut E c N s).pred.length = c.dataDim ∧ (sampleOut E c N s).recon.length = c.dataDim ∧
      (sampleOut E c N s).mu.length = (sampleOut E c N s).logv.length := by
  obtain ⟨⟨p1, p2⟩, ⟨r1, r2⟩, ⟨l1, l2⟩⟩ := hN
  simp [sampleOut, heads, Vae.forward, Vae.decode, Vae.encode, linear_length, p1, p2, r1, r2, l1, l2]

theorem batchLoss_eq {E : NumEnv} {c : Config} {N : Net} (hd : 0 < c.dataDim) (hg : 0 < c.gatWindow) (hN : LossShape c N)
    {beta : ℚ} (hb : readRat c.extra "beta" 1 = .ok beta) {b : List Sample} (h : ∀ s ∈ b, Fits c s.input ∧ s.target.length = c.dataDim) :
    batchLoss E c N b = .ok (b.map fun s => loss E.exp beta (sampleOut E c N s.input) s.target).sum := by
  unfold batchLoss
  have hf : forward E c N (b.map (·.input)) = .ok ((b.map (·.input)).map (sampleOut E c N)) := by
    rw [forward_ok_iff hd hg]
    refine ⟨?_, rfl⟩
    intro s hs
    obtain ⟨x, hx, rfl⟩ := List.mem_map.1 hs
    exact (h x hx).1
  rw [hb, hf]
  have e : (b.map (·.input)).map (sampleOut E c N) = b.map fun s => sampleOut E c N s.input := by
    rw [List.map_map]
    rfl
  rw [e]
  have := batch_sum E beta (fun s => sampleOut E c N s.input) b (by
    intro s hs
    obtain ⟨h1, h2, h3⟩ := shape_out (E := E) hN s.input
    rw [h1, h2, (h s hs).2]
    exact ⟨rfl, rfl, h3⟩)
  rw [← this]
  rfl

theorem evalEpoch_exact {TS} {E : MEnv TS} (hx : E.Exact) {c : Config} {N : Net} (hd : 0 < c.dataDim) (hg : 0 < c.gatWindow)
    (hN : LossShape c N) {beta : ℚ} (hb : readRat c.extra "beta" 1 = .ok beta) {vs : List Sample}
    (h : ∀ s ∈ vs, Fits c s.input ∧ s.target.length = c.dataDim) {n : Nat} (hn : 0 < n) :
    (evalEpoch E c (some N) (chunk n vs)).avg =
      .fin ((vs.map fun s => loss E.exp beta (sampleOut E.toNumEnv c N s.input) s.target).sum / vs.length) := by
  have hfl := chunk_flatten hn vs
  unfold evalEpoch
  rw [evalEpoch_fin (fun b => (b.map fun s => loss E.exp beta (sampleOut E.toNumEnv c N s.input) s.target).sum) _ ?_ Meter.reset 0
    rfl (by simp [Meter.reset]), hfl]
  · have : ((chunk n vs).map fun b => (b.map fun s => loss E.exp beta (sampleOut E.toNumEnv c N s.input) s.target).sum).sum =
        (vs.map fun s => loss E.exp beta (sampleOut E.toNumEnv c N s.input) s.target).sum := by
      conv_rhs => rw [← hfl]
      generalize chunk n vs = l
      induction l with
      | nil => rfl
      | cons a l ih => simp [ih]
    rw [this]
    simp [Meter.reset]
  · intro b hb'
    refine hx c N b _ (batchLoss_eq hd hg hN hb fun s hs => h s ?_)
    rw [← hfl]
    exact List.mem_flatten.2 ⟨b, hb', hs⟩

theorem prepared_beta {TS} {E : MEnv TS} {p : Params} {f : Frame} {t : Table} {c : Config} (h : Accepted E p f t c) {beta : ℚ}
    (hb : BetaOf p beta) : readRat c.extra "beta" 1 = .ok beta := by
  obtain ⟨-, -, sizes, -, hc⟩ := h
  have he : c.extra = p.after sizes t.names.length := by
    unfold Config.ofParams at hc
    obtain ⟨_, -, hc⟩ := ebind_ok.1 hc
    obtain ⟨_, -, hc⟩ := ebind_ok.1 hc
    obtain ⟨_, -, hc⟩ := ebind_ok.1 hc
    obtain ⟨_, -, hc⟩ := ebind_ok.1 hc
    obtain ⟨_, -, hc⟩ := ebind_ok.1 hc
    obtain ⟨_, -, hc⟩ := ebind_ok.1 hc
    obtain ⟨_, -, hc⟩ := ebind_ok.1 hc
    obtain ⟨_, -, hc⟩ := ebind_ok.1 hc
    obtain ⟨_, -, hc⟩ := ebind_ok.1 hc
    obtain ⟨_, -, hc⟩ := ebind_ok.1 hc
    obtain ⟨_, -, hc⟩ := ebind_ok.1 hc
    rw [← epure_ok.1 hc]
  have hp : c.extra "beta" = p "beta" := by
    rw [he]
    simp [Params.after, validFields]
  unfold readRat
  rw [hp]
  rcases hb with ⟨h1, rfl⟩ | ⟨v, h1, h2, h3⟩
  · rw [h1]
  · rw [h1]
    simp only [h2, if_pos h3]

theorem normRowAt_length (E : NumEnv) (lo hi : ℚ) (dim : Nat) (mins maxs : List ℚ) (rows : List (List ℚ)) (r : Nat) :
    (normRowAt E lo hi dim mins maxs rows r).length = dim := by simp [normRowAt]

theorem windows_fit {E : NumEnv} {lo hi : ℚ} {c : Config} {mins maxs : List ℚ} {step horizon : Nat} {rows : List (List ℚ)}
    {ss : List Sample} (h : Windows E lo hi c.dataDim mins maxs c.inputSize step horizon rows ss) (hk : c.kernel ≤ c.inputSize) :
    ∀ s ∈ ss, Fits c s.input ∧ s.target.length = c.dataDim := by
  intro s hs
  obtain ⟨j, hj, rfl⟩ := List.mem_iff_getElem.1 hs
  rw [h.target j hj, h.window j hj]
  refine ⟨⟨by simpa using hk, ?_⟩, normRowAt_length ..⟩
  intro r hr
  obtain ⟨i, -, rfl⟩ := List.mem_map.1 hr
  exact normRowAt_length ..

/-- **C89** (validation loss). Evaluated exactly, the validation loss of a finite network is the mean over the validation samples of:
squared forecast error plus `beta` times squared reconstruction error and divergence of the latent distribution. `o s` is what the
network returns for the sample alone. The size of the evaluation batches has no influence. -/
theorem C89_loss {TS} {E : MEnv TS} (hx : E.Exact) {p : Params} {f : Frame} {t : Table} {c : Config} {train val : List (List ℚ)}
    {ts vs : List Sample} (h : Prepared E p f t c train val ts vs) (hk : c.kernel ≤ c.inputSize) {N : Net} (hN : LossShape c N)
    {beta : ℚ} (hb : BetaOf p beta) :
    ∃ o : Sample → NetOut, (∀ s ∈ vs, forward E.toNumEnv c N [s.input] = .ok [o s]) ∧
      ∀ n, 0 < n → (evalEpoch E c (some N) (chunk n vs)).avg =
        .fin ((vs.map fun s => loss E.exp beta (o s) s.target).sum / vs.length) := by
  obtain ⟨hg, -, -⟩ := accepted_good h.accepted
  have hd : 0 < c.dataDim := hg.dim
  have hgw : 0 < c.gatWindow := hg.gat
  obtain ⟨maxs, mins, -, -, -, -, -, hw⟩ := h.range
  have hfit := windows_fit hw hk
  refine ⟨fun s => sampleOut E.toNumEnv c N s.input, fun s hs => ?_, fun n hn => ?_⟩
  · rw [forward_ok_iff hd hgw]
    exact ⟨by simpa using (hfit s hs).1, rfl⟩
  · exact evalEpoch_exact hx hd hgw hN (prepared_beta h.accepted hb) hfit hn

/-- **C89** (epochs). The loss that decides which epoch `fit` keeps is this mean. -/
theorem C89_epoch {TS} {E : MEnv TS} (hx : E.Exact) {p : Params} {f : Frame} {t : Table} {c : Config} {train val : List (List ℚ)}
    {ts vs : List Sample} (h : Prepared E p f t c train val ts vs) (hk : c.kernel ≤ c.inputSize) {k : Nat} {N : Net}
    (hn : netAfter E c ts (k + 1) = some N) (hN : LossShape c N) {beta : ℚ} (hb : BetaOf p beta) :
    ∃ o : Sample → NetOut, (∀ s ∈ vs, forward E.toNumEnv c N [s.input] = .ok [o s]) ∧
      epochLoss E c ts vs k = .fin ((vs.map fun s => loss E.exp beta (o s) s.target).sum / vs.length) := by
  obtain ⟨o, h1, h2⟩ := C89_loss hx h hk hN hb
  obtain ⟨hg, -, -⟩ := accepted_good h.accepted
  refine ⟨o, h1, ?_⟩
  unfold epochLoss
  rw [hn]
  exact h2 _ hg.batch

theorem sqErr_nonneg (a b : List ℚ) : 0 ≤ sqErr a b := by
  induction a generalizing b with
  | nil => cases b <;> exact le_rfl
  | cons x a ih =>
    cases b with
    | nil => exact le_rfl
    | cons y b =>
      have := ih b
      rw [sqErr]
      positivity

theorem sqErr_zero {a b : List ℚ} (hl : a.length = b.length) (h : sqErr a b = 0) : a = b := by
  induction a generalizing b with
  | nil => cases b with
    | nil => rfl
    | cons => simp at hl
  | cons x a ih =>
    cases b with
    | nil => simp at hl
    | cons y b =>
      rw [sqErr] at h
      have h1 := sqErr_nonneg a b
      have h2 := sq_nonneg (x - y)
      have h3 : (x - y) ^ 2 = 0 := by linarith
      have h4 : x = y := by have := pow_eq_zero_iff (n := 2) (by norm_num) |>.1 h3; linarith
      rw [h4, ih (by simpa using hl) (by linarith)]

theorem divergence_nonneg {exp : ℚ → ℚ} (he : ∀ x, 1 + x ≤ exp x) (mu logv : List ℚ) : 0 ≤ divergence exp mu logv := by
  induction mu generalizing logv with
  | nil => cases logv <;> exact le_rfl
  | cons m mu ih =>
    cases logv with
    | nil => exact le_rfl
    | cons l logv =>
      have := ih logv
      have h1 := he l
      have h2 := sq_nonneg m
      rw [divergence]
      have : 0 ≤ (m ^ 2 + exp l - 1 - l) / 2 := by linarith
      linarith

theorem mean_sign {exp : ℚ → ℚ} (he : ∀ x, 1 + x ≤ exp x) {beta : ℚ} (hb : 0 ≤ beta) (o : Sample → NetOut) (vs : List Sample) :
    0 ≤ (vs.map fun s => loss exp beta (o s) s.target).sum / vs.length ∧
      ((vs.map fun s => loss exp beta (o s) s.target).sum / vs.length = 0 →
        ∀ s ∈ vs, (o s).pred.length = s.target.length → (o s).pred = s.target) := by
  have h0 : ∀ s, 0 ≤ loss exp beta (o s) s.target := by
    intro s
    have h1 := sqErr_nonneg (o s).pred s.target
    have h2 := sqErr_nonneg (o s).recon s.target
    have h3 := divergence_nonneg he (o s).mu (o s).logv
    unfold loss
    positivity
  have hs : 0 ≤ (vs.map fun s => loss exp beta (o s) s.target).sum :=
    List.sum_nonneg (by
      intro x hx
      obtain ⟨s, -, rfl⟩ := List.mem_map.1 hx
      exact h0 s)
  refine ⟨div_nonneg hs (by positivity), ?_⟩
  intro hz s hsv hl
  have hne : (vs.length : ℚ) ≠ 0 := by
    have := List.length_pos_of_mem hsv
    exact_mod_cast this.ne'
  rw [div_eq_zero_iff, or_iff_left hne] at hz
  have h1 : loss exp beta (o s) s.target = 0 := by
    refine le_antisymm ?_ (h0 s)
    rw [← hz]
    exact List.single_le_sum (fun x hx => by
      obtain ⟨s', -, rfl⟩ := List.mem_map.1 hx
      exact h0 s') _ (List.mem_map.2 ⟨s, hsv, rfl⟩)
  unfold loss at h1
  have h2 := sqErr_nonneg (o s).pred s.target
  have h3 : 0 ≤ beta * (sqErr (o s).recon s.target + divergence exp (o s).mu (o s).logv) :=
    mul_nonneg hb (add_nonneg (sqErr_nonneg _ _) (divergence_nonneg he _ _))
  exact sqErr_zero hl (by linarith)

/-- **C89** (sign). When `exp` satisfies `1 + x ≤ exp x`, the loss is not negative, and it is 0 only if every validation sample is
forecast exactly. -/
theorem C89_sign {TS} {E : MEnv TS} (hx : E.Exact) (he : ∀ x, 1 + x ≤ E.exp x) {p : Params} {f : Frame} {t : Table} {c : Config}
    {train val : List (List ℚ)} {ts vs : List Sample} (h : Prepared E p f t c train val ts vs) (hk : c.kernel ≤ c.inputSize) {N : Net}
    (hN : LossShape c N) {beta : ℚ} (hb : BetaOf p beta) {n : Nat} (hn : 0 < n) :
    ∃ q, (evalEpoch E c (some N) (chunk n vs)).avg = .fin q ∧ 0 ≤ q ∧
      (q = 0 → ∀ s ∈ vs, ∃ o, forward E.toNumEnv c N [s.input] = .ok [o] ∧ o.pred = s.target) := by
  obtain ⟨hg, -, -⟩ := accepted_good h.accepted
  have hd : 0 < c.dataDim := hg.dim
  have hgw : 0 < c.gatWindow := hg.gat
  obtain ⟨maxs, mins, -, -, -, -, -, hw⟩ := h.range
  have hfit := windows_fit hw hk
  have hb0 : 0 ≤ beta := by
    rcases hb with ⟨-, rfl⟩ | ⟨v, -, -, h0⟩
    · norm_num
    · exact h0
  obtain ⟨h1, h2⟩ := mean_sign he hb0 (fun s => sampleOut E.toNumEnv c N s.input) vs
  refine ⟨_, evalEpoch_exact hx hd hgw hN (prepared_beta h.accepted hb) hfit hn, h1, fun hz s hs => ?_⟩
  refine ⟨sampleOut E.toNumEnv c N s.input, ?_, h2 hz s hs ?_⟩
  · rw [forward_ok_iff hd hgw]
    exact ⟨by simpa using (hfit s hs).1, rfl⟩
  · rw [(hfit s hs).2]
    exact (shape_out hN s.input).1

/-! ### an environment in which evaluation is exact -/

def lossNum : NumEnv := { demoNum with exp := fun x => max 0 (1 + x) }

/-- `constNet` with a reconstruction of every variable -/
def lossNet (key bias : ℚ) (c : Config) : Net :=
  { constNet key bias c with
    vae := { (constNet key bias c).vae with recon := ⟨List.replicate c.dataDim [], List.replicate c.dataDim (1 / 2)⟩ } }

def lossE : MEnv Nat :=
  { demoM (fun c s => some (lossNet 1 (s / 10) c)) loss0 with
    toNumEnv := lossNum
    evalLoss := fun c net b =>
      match net with
      | none => .nan
      | some N =>
        match batchLoss lossNum c N b with
        | .ok q => .fin q
        | .error _ => .nan }

theorem lossE_exact : lossE.Exact := by
  intro c N b q h
  change (match batchLoss lossNum c N b with | .ok q => PyFloat.fin q | .error _ => .nan) = _
  rw [show batchLoss lossNum c N b = .ok q from h]

theorem lossE_exp (x : ℚ) : 1 + x ≤ lossE.exp x := le_max_right _ _

theorem lossNum_wf : lossNum.WF :=
  { demoNum_wf with
    exp_zero := by norm_num [lossNum]
    exp_mono := by
      intro a b h
      exact max_le_max le_rfl (by linarith)
    exp_nonneg := fun x => le_max_left _ _
    exp_one := by norm_num [lossNum, demoNum] }

theorem lossE_wf : lossE.WF where
  table := demoTable_wf
  num := lossNum_wf
  weights_shape := by
    intro c ts N _ h
    cases h
    simp [lossNet, constNet]
  shuffle_perm ts n := List.Perm.refl _
  shuffle_weights c ts n := rfl

theorem lossNet_shape (key bias : ℚ) (c : Config) : LossShape c (lossNet key bias c) := by
  constructor <;> simp [lossNet, constNet]

/-- A run of four epochs with `beta` 1: prepared rows and samples and a network of the shape. -/
example : ∃ f t c train val ts vs N, Prepared lossE demoEpochs.params f t c train val ts vs ∧ c.kernel ≤ c.inputSize ∧
    netAfter lossE c ts 1 = some N ∧ LossShape c N ∧ BetaOf demoEpochs.params 1 := by
  obtain ⟨w', u, h, -⟩ := returned_ok (x := Multi.fit lossE (.frame demoTrain)) (w := demoEpochs) (test := fun _ => true)
    (by decide +kernel)
  obtain ⟨f, t, c, train, val, ts, vs, hd, hp, hr⟩ := C58_best_epoch lossE_wf h
  refine ⟨f, t, c, train, val, ts, vs, lossNet 1 _ c, hp, ?_, rfl, lossNet_shape _ _ c, Or.inl ⟨by decide +kernel, rfl⟩⟩
  obtain ⟨-, -, sizes, hs, hc⟩ := hp.accepted
  have h1 : windowSizes lossE (demoEpochs.params "sliding_window") = .ok (2, 2) := rfl
  cases h1.symm.trans hs
  unfold Config.ofParams at hc
  obtain ⟨k, hk, hc⟩ := ebind_ok.1 hc
  have h2 : readNat (demoEpochs.params.after (2, 2) t.names.length) "cnn_kernel_size" 7 1 = .ok 1 := rfl
  cases h2.symm.trans hk
  iterate 10 obtain ⟨_, -, hc⟩ := ebind_ok.1 hc
  have h3 := epure_ok.1 hc
  have h4 : (1 : Nat) = c.kernel := congrArg Config.kernel h3
  have h5 : (2 : Nat) = c.inputSize := congrArg Config.inputSize h3
  omega

/-- In that run the second epoch, which forecasts 0.2 for cells of mean just below 0.25, has the least loss and is kept. -/
example : ∃ w', Multi.fit lossE (.frame demoTrain) demoEpochs = (w', .ok ()) ∧ heldBias w' = some [1 / 5, 1 / 5] := by
  obtain ⟨w', u, h, -⟩ := returned_ok (x := Multi.fit lossE (.frame demoTrain)) (w := demoEpochs) (test := fun _ => true)
    (by decide +kernel)
  refine ⟨w', h, ?_⟩
  have : heldBias (Multi.fit lossE (.frame demoTrain) demoEpochs).1 = some [1 / 5, 1 / 5] := by decide +kernel
  rwa [h] at this

end Verif
