import Verif.Props.MultiHorizon
import Verif.Props.MultiUnread

/-!
# C131: more epochs

Two trainings that differ in `epochs` only run the same epochs as far as both go. The longer one keeps the network the shorter one keeps, or one of a later
epoch with a strictly smaller validation loss.
-/

namespace Verif

open Multi Spec

namespace Spec

/-- the params agree except perhaps on `epochs` -/
def SameButEpochs (p q : Params) : Prop := ∀ k, k ≠ "epochs" → p k = q k

/-- a call other than `fit` -/
def IsUse : Call → Prop
  | .fit _ => False
  | _ => True

/-- the number of epochs a dict asks for: 100 if it does not say -/
def EpochsOf (p : Params) (n : Nat) : Prop :=
  (p "epochs" = none ∧ n = 100) ∨ ∃ v i, p "epochs" = some v ∧ v.asInt? = some i ∧ n = i.toNat

end Spec

/-- a configuration without the number of epochs -/
def stripC (c : Config) : Config := { c with epochs := 0, extra := fun k => if k = "epochs" then none else c.extra k }

theorem env_strip {G O} (L : TrainEnv G O) :
    (∀ c, L.env.initState (stripC c) = L.env.initState c) ∧ (∀ c ts b, L.env.step (stripC c) ts b = L.env.step c ts b) ∧
      (∀ c ts, L.env.weights (stripC c) ts = L.env.weights c ts) ∧ (∀ c n b, L.env.evalLoss (stripC c) n b = L.env.evalLoss c n b) :=
  ⟨fun _ => rfl, fun _ _ _ => rfl, fun _ _ => rfl, fun _ _ _ => rfl⟩

theorem stateAfter_strip {G O} (L : TrainEnv G O) (c : Config) (ts : List Sample) (k : Nat) :
    stateAfter L.env (stripC c) ts k = stateAfter L.env c ts k := by
  obtain ⟨h1, h2, -, -⟩ := env_strip L
  induction k with
  | zero => exact h1 c
  | succ k ih =>
    unfold stateAfter
    rw [ih]
    unfold trainEpoch
    simp only [h2]
    rfl

theorem netAfter_strip {G O} (L : TrainEnv G O) (c : Config) (ts : List Sample) (k : Nat) :
    netAfter L.env (stripC c) ts k = netAfter L.env c ts k := by
  unfold netAfter
  rw [stateAfter_strip, (env_strip L).2.2.1]

theorem epochLoss_strip {G O} (L : TrainEnv G O) (c : Config) (ts vs : List Sample) (k : Nat) :
    epochLoss L.env (stripC c) ts vs k = epochLoss L.env c ts vs k := by
  unfold epochLoss
  rw [netAfter_strip]
  unfold evalEpoch
  simp only [(env_strip L).2.2.2]
  rfl

theorem accepted_strip {TS} {E : MEnv TS} {p q : Params} (hpq : SameButEpochs p q) {f : Frame} {t t' : Table} {c c' : Config} (h : Accepted E p f t c)
    (h' : Accepted E q f t' c') : t = t' ∧ stripC c = stripC c' ∧ EpochsOf p c.epochs.toNat ∧ EpochsOf q c'.epochs.toNat := by
  obtain ⟨-, ⟨proc, hi, hp⟩, sizes, hs, hc⟩ := h
  obtain ⟨-, ⟨proc', hi', hp'⟩, sizes', hs', hc'⟩ := h'
  rw [hpq _ (by decide), hpq _ (by decide), hi'] at hi
  cases hi
  rw [hp'] at hp
  cases hp
  rw [hpq _ (by decide), hs'] at hs
  cases hs
  refine ⟨rfl, ?_⟩
  have ha : ∀ k, k ≠ "epochs" → p.after sizes t.names.length k = q.after sizes t.names.length k := by
    intro k hk
    unfold Params.after
    rw [hpq k hk]
  have hq : ∀ r : Params, ∀ {i}, readInt (r.after sizes t.names.length) "epochs" 100 = .ok i → EpochsOf r i.toNat := by
    intro r i hr
    unfold readInt at hr
    rw [show r.after sizes t.names.length "epochs" = r "epochs" from rfl] at hr
    cases he : r "epochs" with
    | none =>
      rw [he] at hr
      cases hr
      exact .inl ⟨he, rfl⟩
    | some v =>
      rw [he] at hr
      dsimp only at hr
      cases hv : v.asInt? with
      | none => rw [hv] at hr; cases hr
      | some j =>
        rw [hv] at hr
        cases hr
        exact .inr ⟨v, _, he, hv, rfl⟩
  have hp0 := @hq p
  have hq0 := @hq q
  clear hq
  revert ha hc hc' hp0 hq0
  generalize p.after sizes t.names.length = a, q.after sizes t.names.length = b
  intro hc hc' ha hp0 hq0
  have rn : ∀ k, k ≠ "epochs" → ∀ d lo, readNat a k d lo = readNat b k d lo := fun k hk d lo => by unfold readNat; rw [ha k hk]
  have rr : ∀ k, k ≠ "epochs" → ∀ d, readRat a k d = readRat b k d := fun k hk d => by unfold readRat; rw [ha k hk]
  have rs : ∀ k, k ≠ "epochs" → ∀ d, readStr a k d = readStr b k d := fun k hk d => by unfold readStr; rw [ha k hk]
  have hx : (fun k => if k = "epochs" then none else a k) = fun k => if k = "epochs" then none else b k := by
    funext k
    split
    · rfl
    · rename_i hk
      exact ha k hk
  unfold Config.ofParams at hc hc'
  rw [rn _ (by decide)] at hc
  obtain ⟨_, h1, hc⟩ := ebind_ok.1 hc
  obtain ⟨_, h1', hc'⟩ := ebind_ok.1 hc'
  cases h1.symm.trans h1'
  rw [rn _ (by decide)] at hc
  obtain ⟨_, h2, hc⟩ := ebind_ok.1 hc
  obtain ⟨_, h2', hc'⟩ := ebind_ok.1 hc'
  cases h2.symm.trans h2'
  rw [rn _ (by decide)] at hc
  obtain ⟨_, h3, hc⟩ := ebind_ok.1 hc
  obtain ⟨_, h3', hc'⟩ := ebind_ok.1 hc'
  cases h3.symm.trans h3'
  obtain ⟨e, he, hc⟩ := ebind_ok.1 hc
  obtain ⟨e', he', hc'⟩ := ebind_ok.1 hc'
  rw [rn _ (by decide)] at hc
  obtain ⟨_, h4, hc⟩ := ebind_ok.1 hc
  obtain ⟨_, h4', hc'⟩ := ebind_ok.1 hc'
  cases h4.symm.trans h4'
  rw [rn _ (by decide)] at hc
  obtain ⟨_, h5, hc⟩ := ebind_ok.1 hc
  obtain ⟨_, h5', hc'⟩ := ebind_ok.1 hc'
  cases h5.symm.trans h5'
  rw [rn _ (by decide)] at hc
  obtain ⟨_, h6, hc⟩ := ebind_ok.1 hc
  obtain ⟨_, h6', hc'⟩ := ebind_ok.1 hc'
  cases h6.symm.trans h6'
  rw [rs _ (by decide)] at hc
  obtain ⟨_, h7, hc⟩ := ebind_ok.1 hc
  obtain ⟨_, h7', hc'⟩ := ebind_ok.1 hc'
  cases h7.symm.trans h7'
  rw [rr _ (by decide)] at hc
  obtain ⟨_, h8, hc⟩ := ebind_ok.1 hc
  obtain ⟨_, h8', hc'⟩ := ebind_ok.1 hc'
  cases h8.symm.trans h8'
  rw [rr _ (by decide)] at hc
  obtain ⟨_, h9, hc⟩ := ebind_ok.1 hc
  obtain ⟨_, h9', hc'⟩ := ebind_ok.1 hc'
  cases h9.symm.trans h9'
  rw [rr _ (by decide)] at hc
  obtain ⟨_, h10, hc⟩ := ebind_ok.1 hc
  obtain ⟨_, h10', hc'⟩ := ebind_ok.1 hc'
  cases h10.symm.trans h10'
  rw [epure_ok] at hc hc'
  subst hc hc'
  refine ⟨?_, hp0 he, hq0 he'⟩
  unfold stripC
  dsimp only
  rw [hx]

/-- the runs of two trainings that differ in `epochs` -/
theorem runs_strip {TS} {E : MEnv TS} {p q : Params} (hpq : SameButEpochs p q) {w u v : World} {f : Frame} {t t' : Table} {c c' : Config}
    (R : FitRun E { w with params := p } u f t c) (R' : FitRun E { w with params := q } v f t' c') :
    stripC c = stripC c' ∧ EpochsOf p c.epochs.toNat ∧ EpochsOf q c'.epochs.toNat ∧ R.pct = R'.pct ∧ R.train = R'.train ∧
      R.ts = R'.ts ∧ R.vs = R'.vs := by
  obtain ⟨c0, pct, train, val, ts, vs, w1, w2, w3, last, th, hacc, hpct, hsp, hne, rfl, hts, hvs, -, -, -, -, -, -, -⟩ := R
  obtain ⟨c0', pct', train', val', ts', vs', w1', w2', w3', last', th', hacc', hpct', hsp', hne', rfl, hts', hvs', -, -, -, -, -, -, -⟩ := R'
  obtain ⟨rfl, hs, he, he'⟩ := accepted_strip hpq hacc hacc'
  dsimp only
  have e1 : c0.thresholdWindow = c0'.thresholdWindow := congrArg (·.thresholdWindow) hs
  have e2 : c0.inputSize = c0'.inputSize := congrArg (·.inputSize) hs
  have e3 : c0.dataDim = c0'.dataDim := congrArg (·.dataDim) hs
  have e4 : split c0 t.rows = split c0' t.rows := by
    unfold split
    rw [show c0.trainRatio = c0'.trainRatio from congrArg (·.trainRatio) hs, show c0.valRatio = c0'.valRatio from congrArg (·.valRatio) hs]
  rw [e1, e2, hpct'] at hpct
  cases hpct
  rw [e4, hsp'] at hsp
  cases hsp
  have e5 : stripC { c0 with base := some (colFold npMax c0.dataDim train, colFold npMin c0.dataDim train) } =
      stripC { c0' with base := some (colFold npMax c0'.dataDim train, colFold npMin c0'.dataDim train) } := by
    exact congrArg (fun x : Config => { x with base := some (colFold npMax x.dataDim train, colFold npMin x.dataDim train) }) hs
  refine ⟨e5, he, he', rfl, rfl, ?_, ?_⟩
  · unfold trainSet at hts hts'
    dsimp only at hts hts'
    rw [e2, e3, show c0.interval = c0'.interval from congrArg (·.interval) hs, show c0.horizon = c0'.horizon from congrArg (·.horizon) hs, hts'] at hts
    exact (Except.ok.inj hts).symm
  · unfold inferSet at hvs hvs'
    dsimp only at hvs hvs'
    rw [e2, e3, hvs'] at hvs
    exact (Except.ok.inj hvs).symm

/-- the best of more epochs is the best of fewer or a later and strictly better one -/
theorem best_more {loss : Nat → PyFloat} {m n i j : Nat} (hmn : m ≤ n) (hi : IsBest loss m i) (hj : IsBest loss n j) :
    i = j ∨ (m ≤ j ∧ (loss j).lt (loss i) = true) := by
  by_cases hjm : j < m
  · exact .inl (C58_unique hi ⟨hjm, hj.below, fun k hk => hj.least k (by omega), hj.first⟩)
  · rcases hj.first i (by have := hi.lt; omega) with h | h
    · have := hi.below
      rw [h] at this
      cases this
    · exact .inr ⟨by omega, h⟩

theorem uses_same : ∀ {cs : List Call}, (∀ c ∈ cs, IsUse c) → List.Forall₂ SameUse cs cs
  | [], _ => .nil
  | c :: cs, h => by
    refine .cons ?_ (uses_same fun c hc => h c (by simp [hc]))
    have := h c (by simp)
    cases c with
    | fit data => exact this.elim
    | params p => exact .params p
    | predict data => exact .predict data
    | load s => exact .load s
    | path s => exact .path s
    | file s f => exact .file s (.refl f)
    | new => exact .new

theorem outcomes_use {TS} {E : MEnv TS} {w v : World} (hu : UseW w v) {cs : List Call} (h : List.Forall₂ SameUse cs cs) :
    outcomes E w cs = outcomes E v cs := by
  induction cs generalizing w v with
  | nil => rfl
  | cons c cs ih =>
    cases h with
    | cons hc hcs =>
      obtain ⟨h1, h2⟩ := call_use E hu hc
      unfold outcomes
      rw [h2, ih h1 hcs]

theorem thresholds_use {TS} (E : MEnv TS) {d d' : Det} (h : UseD d d') {c c' : Config} (hc : d.config = some c) (hc' : d'.config = some c')
    (hl : c.level = c'.level) (values : List (List ℚ)) : computeThresholds E d values = computeThresholds E d' values := by
  unfold computeThresholds
  rw [inference_use E h]
  cases inference E d' values with
  | error => rfl
  | ok o =>
    obtain ⟨o1, o2, o3⟩ := o
    cases o2 with
    | none => rfl
    | some s =>
      show (match (some s : Option (List ℚ)), d.config with
        | some scores, some c => _ | _, _ => _) = (match (some s : Option (List ℚ)), d'.config with | some scores, some c => _ | _, _ => _)
      rw [hc, hc']
      dsimp only
      rw [hl]

/-- **C131**. Two trainings of the same detector on the same table with params that differ in `epochs` only, both of which return: the first has `m` epochs, the
second `n ≥ m`. Either the second keeps the network the first keeps, and whatever is then done with the detectors and checkpoints (any calls other than
`fit`) has the same outcomes; or it keeps the network of an epoch the first did not reach, whose validation loss is strictly smaller; or no epoch of the
first had a loss below infinity, which takes a checkpoint in the save directory before the call. -/
theorem C131_epochs {G O} (L : TrainEnv G O) (hL : L.env.WF) {data : MData} {w u v : World} {p q : Params} (hpq : SameButEpochs p q) {m n : Nat}
    (hm : EpochsOf p m) (hn : EpochsOf q n) (hmn : m ≤ n)
    (h : Multi.fit L.env data { w with params := p } = (u, .ok ())) (h' : Multi.fit L.env data { w with params := q } = (v, .ok ())) :
    ∃ f t c train val ts vs, data = .frame f ∧ Prepared L.env p f t c train val ts vs ∧
      ((∃ i j, IsBest (epochLoss L.env c ts vs) m i ∧ IsBest (epochLoss L.env c ts vs) n j ∧
          u.det.model.map (·.net) = some (netAfter L.env c ts (i + 1)) ∧ v.det.model.map (·.net) = some (netAfter L.env c ts (j + 1)) ∧
          ((i = j ∧ ∀ r cs, (∀ x ∈ cs, IsUse x) → outcomes L.env { u with params := r } cs = outcomes L.env { v with params := r } cs) ∨
            (m ≤ j ∧ (epochLoss L.env c ts vs j).lt (epochLoss L.env c ts vs i) = true))) ∨
        ((∀ j < m, (epochLoss L.env c ts vs j).lt .pinf = false) ∧ ∃ k, w.disk (L.joinPath c.save) = .ckpt k)) := by
  obtain ⟨f, t, c, rfl, ⟨R⟩⟩ := fit_ok h
  obtain ⟨f', t', c', hd, ⟨R'⟩⟩ := fit_ok h'
  cases hd
  refine ⟨f, t, c, R.train, R.val, R.ts, R.vs, rfl, R.prepared hL, ?_⟩
  have one : ∀ {r : Params} {a b : Nat}, EpochsOf r a → EpochsOf r b → a = b := by
    rintro r a b (⟨h1, h2⟩ | ⟨v1, i1, h1, h2, h3⟩) (⟨h4, h5⟩ | ⟨v2, i2, h4, h5, h6⟩)
    · omega
    · rw [h1] at h4; cases h4
    · rw [h1] at h4; cases h4
    · rw [h1] at h4
      cases h4
      rw [h2] at h5
      cases h5
      omega
  obtain ⟨hs, he, he', hpct, htr, hts, hvs⟩ := runs_strip hpq R R'
  obtain rfl := one hm he
  obtain rfl := one hn he'
  have hloss : epochLoss L.env c' R'.ts R'.vs = epochLoss L.env c R.ts R.vs := by
    funext k
    rw [← epochLoss_strip, ← hs, epochLoss_strip, hts, hvs]
  have hnet : ∀ k, netAfter L.env c' R'.ts k = netAfter L.env c R.ts k := by
    intro k
    rw [← netAfter_strip, ← hs, netAfter_strip, hts]
  obtain ⟨⟨hv, hmp, hres⟩, -, hth, ht1, -⟩ := R.outcome
  obtain ⟨⟨hv', hmp', hres'⟩, -, hth', ht1', -⟩ := R'.outcome
  rcases hres with ⟨i, hi, hc1, hm1, hp1, hk1, hd1⟩ | ⟨hall, -, k, hk, -⟩
  · left
    rcases hres' with ⟨j, hj, hc2, hm2, hp2, hk2, hd2⟩ | ⟨hall, -⟩
    · rw [hloss] at hj
      refine ⟨i, j, hi, hj, by rw [hm1]; rfl, by rw [hm2, hnet]; rfl, ?_⟩
      rcases best_more hmn hi hj with rfl | hlt
      · refine .inl ⟨rfl, fun r cs hcs => outcomes_use ?_ (uses_same hcs)⟩
        have hun : untrained (stripC c) = untrained (stripC c') := congrArg untrained hs
        have hsave : c.save = c'.save := congrArg (·.save) hs
        have hD : ∀ x y, UseD { u.det with threshold := x } { v.det with threshold := y } ↔ x = y := by
          intro x y
          refine ⟨fun h => h.threshold, fun h => ⟨?_, ?_, ?_, h, ?_⟩⟩
          · show Option.Rel _ u.det.config v.det.config
            rw [hc1, hc2]
            exact .some hun
          · show Option.Rel _ u.det.model v.det.model
            rw [hm1, hm2]
            exact .some ⟨hun, (hnet _).symm⟩
          · show u.det.pct = v.det.pct
            rw [hp1, hp2, hpct]
          · show u.det.modelPath = v.det.modelPath
            rw [hmp, hmp', hsave]
        have h0 : computeThresholds L.env u.det R.train = computeThresholds L.env v.det R.train :=
          thresholds_use L.env ((hD none none).2 rfl) hc1 hc2 (congrArg (·.level) hs) R.train
        rw [hth, htr, hth'] at h0
        have h1 : R.th = R'.th := Except.ok.inj h0
        have h2 : u.det.threshold = v.det.threshold := by rw [ht1, ht1', h1]
        refine ⟨(hD u.det.threshold v.det.threshold).2 h2, fun x => ?_, rfl⟩
        show SameFile (u.disk x) (v.disk x)
        by_cases hx : x = L.env.joinPath c.save
        · subst hx
          rw [hk1, hsave, hk2]
          exact .ckpt ⟨(hnet _).symm, hun, by rw [hpct], rfl⟩
        · rw [hd1 x hx, hd2 x (by rw [← hsave]; exact hx)]
          exact .refl _
      · exact .inr hlt
    · exfalso
      rw [hloss] at hall
      have := hall i (by have := hi.lt; omega)
      rw [hi.below] at this
      cases this
  · exact .inr ⟨hall, k, hk⟩

/-! ### a concrete case -/

/-- training whose optimizer lowers the output biases by a tenth -/
def downT : TrainEnv Nat Unit :=
  { demoT with optStep := fun o N _ => (some { N with fc3 := ⟨N.fc3.weight, N.fc3.bias.map (· - 1 / 10)⟩ }, o) }

theorem downT_wf : TrainWF downT :=
  { demoT_wf with
    opt_shape := fun o N g P hP c z enc dec hN => by
      cases hP
      exact { hN with fc3 := ⟨hN.fc3.1, by simp [hN.fc3.2]⟩ } }

/-- half of the rows for training, half for validation, `n` epochs -/
def halfParams (n : Int) : Params := fun k =>
  if k = "epochs" then some (.int n) else if k = "train_ratio" then some (.float (.fin (1 / 2)))
  else if k = "val_ratio" then some (.float (.fin (1 / 2))) else trainParams k

theorem halfParams_same (m n : Int) : SameButEpochs (halfParams m) (halfParams n) := by
  intro k hk
  unfold halfParams
  rw [if_neg hk, if_neg hk]

/-- the output biases after a training of `n` epochs -/
def biasAfter (n : Int) : Option (List ℚ) :=
  match Multi.fit downT.env (.frame demoTrain) ⟨{}, fun _ => .missing, halfParams n⟩ with
  | (w, .ok ()) => (w.det.model.bind (·.net)).map (·.fc3.bias)
  | _ => none

/-- trainings of one, two and three epochs return; the second epoch is better than the first, the third is not better -/
example : biasAfter 1 = some [0, 0] ∧ biasAfter 2 = some [-1 / 10, -1 / 10] ∧ biasAfter 3 = some [-1 / 10, -1 / 10] := by decide +kernel

theorem biasAfter_fit {n : Int} {l : List ℚ} (h : biasAfter n = some l) :
    ∃ u, Multi.fit downT.env (.frame demoTrain) ⟨{}, fun _ => .missing, halfParams n⟩ = (u, .ok ()) := by
  unfold biasAfter at h
  split at h
  · rename_i w hw
    exact ⟨w, hw⟩
  · cases h

/-- the three trainings meet the hypotheses; there is no checkpoint before them -/
example : ∃ u1 u2 u3, Multi.fit downT.env (.frame demoTrain) ⟨{}, fun _ => .missing, halfParams 1⟩ = (u1, .ok ()) ∧
    Multi.fit downT.env (.frame demoTrain) ⟨{}, fun _ => .missing, halfParams 2⟩ = (u2, .ok ()) ∧
    Multi.fit downT.env (.frame demoTrain) ⟨{}, fun _ => .missing, halfParams 3⟩ = (u3, .ok ()) ∧ downT.env.WF ∧
    EpochsOf (halfParams 1) 1 ∧ EpochsOf (halfParams 2) 2 ∧ EpochsOf (halfParams 3) 3 := by
  obtain ⟨u1, h1⟩ := biasAfter_fit (n := 1) (l := [0, 0]) (by decide +kernel)
  obtain ⟨u2, h2⟩ := biasAfter_fit (n := 2) (l := [-1 / 10, -1 / 10]) (by decide +kernel)
  obtain ⟨u3, h3⟩ := biasAfter_fit (n := 3) (l := [-1 / 10, -1 / 10]) (by decide +kernel)
  exact ⟨u1, u2, u3, h1, h2, h3, (C119_laws downT_wf).1, .inr ⟨_, _, rfl, rfl, rfl⟩, .inr ⟨_, _, rfl, rfl, rfl⟩, .inr ⟨_, _, rfl, rfl, rfl⟩⟩

end Verif
