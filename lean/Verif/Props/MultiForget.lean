import Verif.Props.MultiOffset

/-!
# C124: training starts afresh

What `fit` returns, and the detector it leaves, depend on its params and its table only: not on earlier trainings of the same detector, nor on
what is in the save directory. The one exception is the training without a usable epoch, which reads whatever checkpoint is there (C58).
-/

namespace Verif

open Multi Spec

namespace Spec

/-- a new detector and no files, with these params -/
def blank (p : Params) : World := ⟨{}, fun _ => .missing, p⟩

/-- the calls that only ask: `predict`, and passing other params -/
def Asks : Call → Prop
  | .params _ => True
  | .predict _ => True
  | _ => False

/-- what a program leaves -/
def leave {TS} (E : MEnv TS) (w : World) (cs : List Call) : World := cs.foldl (fun w c => (doCall E w c).1) w

end Spec

/-! ### two runs of the same program -/

/-- Two runs side by side: the first stops for want of a file, or both stop alike, or both return the same and `Q` holds of what they leave. -/
def Twin {α} (R : World → World → Prop) (x y : MM α) (Q : α → World → World → Prop) : Prop :=
  ∀ w v, R w v → (x w).2 = .error (.err .fileNotFound) ∨ (∃ e, (x w).2 = .error e ∧ (y v).2 = .error e) ∨
    ∃ a, (x w).2 = .ok a ∧ (y v).2 = .ok a ∧ Q a (x w).1 (y v).1

theorem Twin.bind {α β} {R : World → World → Prop} {x y : MM α} {f g : α → MM β} {Q : α → World → World → Prop}
    {Q' : β → World → World → Prop} (h : Twin R x y Q) (h' : ∀ a, Twin (Q a) (f a) (g a) Q') : Twin R (x >>= f) (y >>= g) Q' := by
  intro w v hwv
  have hb : ∀ (z : MM α) (k : α → MM β) (u : World), (z >>= k) u = MM.bind z k u := fun _ _ _ => rfl
  rw [hb, hb]
  unfold MM.bind
  have := h w v hwv
  rcases hx : x w with ⟨w1, r⟩
  rcases hy : y v with ⟨v1, s⟩
  rw [hx, hy] at this
  dsimp only at this
  rcases this with rfl | ⟨e, rfl, rfl⟩ | ⟨a, rfl, rfl, hq⟩
  · exact .inl rfl
  · exact .inr (.inl ⟨e, rfl, rfl⟩)
  · exact h' a w1 v1 hq

theorem Twin.imp {α} {R R' : World → World → Prop} {x y : MM α} {Q Q' : α → World → World → Prop} (h : Twin R x y Q)
    (hR : ∀ w v, R' w v → R w v) (hQ : ∀ a w v, Q a w v → Q' a w v) : Twin R' x y Q' := by
  intro w v hwv
  rcases h w v (hR w v hwv) with h | h | ⟨a, h1, h2, h3⟩
  · exact .inl h
  · exact .inr (.inl h)
  · exact .inr (.inr ⟨a, h1, h2, hQ _ _ _ h3⟩)

theorem Twin.pure {α} {R : World → World → Prop} (a : α) : Twin R (Pure.pure a) (Pure.pure a) fun _ => R :=
  fun _ _ h => .inr (.inr ⟨a, rfl, rfl, h⟩)

theorem Twin.of {α} {R : World → World → Prop} (x : Except Stop α) : Twin R (MM.of x) (MM.of x) fun _ => R := by
  intro w v h
  cases x with
  | error e => exact .inr (.inl ⟨e, rfl, rfl⟩)
  | ok a => exact .inr (.inr ⟨a, rfl, rfl, h⟩)

theorem Twin.throw {α} {R : World → World → Prop} (e : PyErr) {Q : α → World → World → Prop} : Twin R (MM.throw e) (MM.throw e) Q :=
  fun _ _ _ => .inr (.inl ⟨_, rfl, rfl⟩)

theorem Twin.det {R R' : World → World → Prop} (f : Det → Det)
    (h : ∀ w v, R w v → R' { w with det := f w.det } { v with det := f v.det }) :
    Twin R (MM.modifyDet f) (MM.modifyDet f) fun _ => R' :=
  fun w v hwv => .inr (.inr ⟨(), rfl, rfl, h w v hwv⟩)

/-- reading the world, for a continuation that uses the params only -/
theorem Twin.readParams {β} {R : World → World → Prop} {f : World → MM β} {Q : β → World → World → Prop}
    (hR : ∀ w v, R w v → w.params = v.params) (hf : ∀ w v, w.params = v.params → f w = f v) (h : ∀ w, Twin R (f w) (f w) Q) :
    Twin R (MM.get >>= f) (MM.get >>= f) Q := by
  intro w v hwv
  have hb : ∀ (u : World), (MM.get >>= f) u = f u u := fun _ => rfl
  rw [hb, hb, ← hf w v (hR w v hwv)]
  exact h w w v hwv

/-- the same params, and files and detectors related by `S` -/
structure Apart (S : Det × (String → File) → Det × (String → File) → Prop) (w v : World) : Prop where
  params : w.params = v.params
  rest : S (w.det, w.disk) (v.det, v.disk)

theorem Twin.dict {S} (f : Params → Params) : Twin (Apart S) (MM.modifyParams f) (MM.modifyParams f) fun _ => Apart S :=
  fun _ _ h => .inr (.inr ⟨(), rfl, rfl, congrArg f h.params, h.rest⟩)

/-- reading the request: only the params change -/
theorem processData_twin {TS} (E : MEnv TS) (data : MData) (S : Det × (String → File) → Det × (String → File) → Prop) :
    Twin (Apart S) (processData E data) (processData E data) fun _ => Apart S := by
  unfold processData
  cases data with
  | other => exact Twin.throw _
  | frame f =>
    dsimp only
    refine Twin.readParams (fun _ _ h => h.params) (fun w v h => by rw [h]) fun w => ?_
    refine (Twin.of _).bind fun sizes => ?_
    refine (Twin.dict _).bind fun _ => ?_
    refine (Twin.dict _).bind fun _ => ?_
    refine (Twin.of _).bind fun proc => ?_
    split
    · refine (Twin.of _).bind fun t => ?_
      refine (Twin.dict _).bind fun _ => ?_
      refine Twin.readParams (fun _ _ h => h.params) (fun w v h => by rw [h]) fun w => ?_
      refine (Twin.of _).bind fun c => ?_
      exact Twin.pure _
    · exact Twin.of _

/-! ### the training -/

/-- the detectors agree on what `fit` has set before the loop, and save at `s` -/
structure SetUp (s : String) (d d' : Det) : Prop where
  config : d.config = d'.config
  vars : d.vars = d'.vars
  pct : d.pct = d'.pct
  left : d.modelPath = some s
  right : d'.modelPath = some s

/-- the detectors agree on what `fit` has set before the loop; without a usable epoch there are no files in the first run, and after one both runs have
a checkpoint with the same network -/
def Trained (s : String) (a b : Det × (String → File)) : Prop :=
  SetUp s a.1 b.1 ∧ ((∀ x, a.2 x = .missing) ∨
    ∃ k l, a.2 s = .ckpt k ∧ b.2 s = .ckpt l ∧ k.net = l.net ∧ k.config = l.config ∧ k.pct = l.pct)

theorem epoch_twin {TS} (E : MEnv TS) (c : Config) (ts vs : List Sample) (s : String) (r : TS × PyFloat) :
    Twin (Apart (Trained s)) (epoch E c ts vs r) (epoch E c ts vs r) fun _ => Apart (Trained s) := by
  unfold epoch
  split
  · exact Twin.throw _
  · dsimp only
    split
    · exact Twin.throw _
    · split
      · refine (Twin.det (R' := Apart (Trained s)) _ fun w v h => ⟨h.params, ⟨?_, h.rest.2⟩⟩).bind fun _ => ?_
        · exact ⟨h.rest.1.config, h.rest.1.vars, h.rest.1.pct, h.rest.1.left, h.rest.1.right⟩
        · refine Twin.bind (Q := fun _ => Apart (Trained s)) ?_ fun _ => Twin.pure _
          intro w v h
          refine .inr (.inr ⟨(), rfl, rfl, h.params, h.rest.1, .inr ?_⟩)
          refine ⟨_, _, if_pos ?_, if_pos ?_, rfl, rfl, h.rest.1.pct⟩
          · exact (congrArg (·.getD "") h.rest.1.left).symm
          · exact (congrArg (·.getD "") h.rest.1.right).symm
      · exact Twin.pure _

theorem epochs_twin {TS} (E : MEnv TS) (c : Config) (ts vs : List Sample) (s : String) (n : Nat) : ∀ r : TS × PyFloat,
    Twin (Apart (Trained s)) (epochs E c ts vs n r) (epochs E c ts vs n r) fun _ => Apart (Trained s) := by
  induction n with
  | zero =>
    intro r
    exact Twin.pure _
  | succ n ih =>
    intro r
    exact (epoch_twin E c ts vs s r).bind fun q => ih q

/-- the end of `fit`: the checkpoint is read and the thresholds are computed -/
theorem finish_twin {TS} (E : MEnv TS) (s : String) (train : List (List ℚ)) :
    Twin (Apart (Trained s))
      (loadCheckpoint (some s) >>= fun _ => MM.get >>= fun w => MM.of (computeThresholds E w.det train) >>= fun r =>
        MM.modifyDet fun d => { d with threshold := some r.1, scoreMax := some r.2.1, scoreMin := some r.2.2 })
      (loadCheckpoint (some s) >>= fun _ => MM.get >>= fun w => MM.of (computeThresholds E w.det train) >>= fun r =>
        MM.modifyDet fun d => { d with threshold := some r.1, scoreMax := some r.2.1, scoreMin := some r.2.2 })
      fun _ w v => w.params = v.params ∧ w.det = v.det ∧ w.det.model.isSome := by
  refine Twin.bind (Q := fun _ w v => w.params = v.params ∧ w.det.model.isSome ∧
    { w.det with threshold := none, scoreMax := none, scoreMin := none } = { v.det with threshold := none, scoreMax := none, scoreMin := none }) ?_ ?_
  · intro w v h
    obtain ⟨hp, hd, hk⟩ := h
    have hl : ∀ u : World, loadCheckpoint (some s) u = (match u.disk s with
      | .missing => MM.throw .fileNotFound
      | .garbage => MM.throw .exception
      | .ckpt k => MM.modifyDet fun d =>
        { d with config := some k.config, model := some ⟨k.config, k.net⟩, pct := k.pct, threshold := k.threshold,
                 scoreMax := k.scoreMax, scoreMin := k.scoreMin } : MM Unit) u := fun _ => rfl
    rw [hl, hl]
    rcases hk with hk | ⟨k, l, h1, h2, h3, h4, h5⟩
    · rw [show w.disk s = .missing from hk s]
      exact .inl rfl
    · rw [show w.disk s = _ from h1, show v.disk s = _ from h2]
      refine .inr (.inr ⟨(), rfl, rfl, hp, rfl, ?_⟩)
      have hv := hd.vars
      have hm := hd.left.trans hd.right.symm
      dsimp only [MM.modifyDet] at hv hm ⊢
      rw [h3, h4, h5, hv, hm]
  · intro _ w v ⟨hp, hm, hd⟩
    have hc : ∀ d : Det, computeThresholds E d train = computeThresholds E { d with threshold := none, scoreMax := none, scoreMin := none } train :=
      fun _ => rfl
    have hb : ∀ u : World, (MM.get >>= fun w => MM.of (computeThresholds E w.det train) >>= fun r =>
        MM.modifyDet fun d => { d with threshold := some r.1, scoreMax := some r.2.1, scoreMin := some r.2.2 }) u =
        match computeThresholds E { u.det with threshold := none, scoreMax := none, scoreMin := none } train with
        | .error e => (u, .error e)
        | .ok r => ({ u with det := { { u.det with threshold := none, scoreMax := none, scoreMin := none } with
            threshold := some r.1, scoreMax := some r.2.1, scoreMin := some r.2.2 } }, .ok ()) := by
      intro u
      rw [← hc]
      show MM.bind (MM.of (computeThresholds E u.det train)) _ u = _
      unfold MM.bind MM.of
      cases computeThresholds E u.det train <;> rfl
    rw [hb, hb, ← hd]
    cases computeThresholds E { w.det with threshold := none, scoreMax := none, scoreMin := none } train with
    | error e => exact .inr (.inl ⟨e, rfl, rfl⟩)
    | ok r => exact .inr (.inr ⟨(), rfl, rfl, hp, rfl, hm⟩)

theorem fit_twin {TS} (E : MEnv TS) (data : MData) :
    Twin (Apart fun a _ => ∀ x, a.2 x = .missing) (Multi.fit E data) (Multi.fit E data)
      fun _ w v => w.params = v.params ∧ w.det = v.det ∧ w.det.model.isSome := by
  unfold Multi.fit
  refine (processData_twin E data _).bind fun ⟨f, t, c0⟩ => ?_
  dsimp only
  refine (Twin.det (R' := Apart fun a b => (a.1.config = b.1.config ∧ a.1.vars = b.1.vars) ∧ ∀ x, a.2 x = .missing) _
    fun w v h => ⟨h.params, ⟨rfl, rfl⟩, h.rest⟩).bind fun _ => ?_
  refine (Twin.of _).bind fun pct => ?_
  refine (Twin.det (R' := Apart (Trained (E.joinPath c0.save))) _
    fun w v h => ⟨h.params, ⟨h.rest.1.1, h.rest.1.2, rfl, rfl, rfl⟩, .inl h.rest.2⟩).bind fun _ => ?_
  split
  · exact Twin.throw _
  · refine (Twin.det (R' := Apart (Trained (E.joinPath c0.save))) _
      fun w v h => ⟨h.params, ⟨rfl, h.rest.1.vars, h.rest.1.pct, h.rest.1.left, h.rest.1.right⟩, h.rest.2⟩).bind fun _ => ?_
    refine (Twin.of _).bind fun ts => (Twin.of _).bind fun vs => ?_
    split
    · exact Twin.throw _
    · exact (epochs_twin E _ ts vs _ _ _).bind fun _ => finish_twin E _ _

/-- **C124**. Compare a `fit` with the same `fit` on a new detector without files: unless that one stops for want of a checkpoint, both return or both
raise the same; and if they return, they leave the same detector and the same params. -/
theorem C124_afresh {TS} (E : MEnv TS) (data : MData) (w : World)
    (h : (Multi.fit E data (blank w.params)).2 ≠ .error (.err .fileNotFound)) :
    (Multi.fit E data w).2 = (Multi.fit E data (blank w.params)).2 ∧
      ((Multi.fit E data w).2 = .ok () →
        (Multi.fit E data w).1.det = (Multi.fit E data (blank w.params)).1.det ∧
        (Multi.fit E data w).1.params = (Multi.fit E data (blank w.params)).1.params) := by
  rcases fit_twin E data (blank w.params) w ⟨rfl, fun _ => rfl⟩ with h1 | ⟨e, h1, h2⟩ | ⟨a, h1, h2, h3, h4, -⟩
  · exact absurd h1 h
  · exact ⟨by rw [h1, h2], fun h => by rw [h2] at h; cases h⟩
  · exact ⟨by rw [h1, h2], fun _ => ⟨h4.symm, h3.symm⟩⟩

/-! ### asking -/

/-- a program that reads and changes the params only -/
def Quiet {α} (x : MM α) : Prop := ∀ p, ∃ q r, ∀ d k, x ⟨d, k, p⟩ = (⟨d, k, q⟩, r)

theorem Quiet.bind {α β} {x : MM α} {f : α → MM β} (h : Quiet x) (h' : ∀ a, Quiet (f a)) : Quiet (x >>= f) := by
  intro p
  obtain ⟨q, r, h⟩ := h p
  have hb : ∀ u, (x >>= f) u = MM.bind x f u := fun _ => rfl
  cases r with
  | error e => exact ⟨q, .error e, fun d k => by rw [hb]; unfold MM.bind; rw [h]⟩
  | ok a =>
    obtain ⟨q', r', h'⟩ := h' a q
    exact ⟨q', r', fun d k => by rw [hb]; unfold MM.bind; rw [h]; exact h' d k⟩

theorem Quiet.of {α} (x : Except Stop α) : Quiet (MM.of x) := fun p => ⟨p, x, fun _ _ => rfl⟩

theorem Quiet.pure {α} (a : α) : Quiet (Pure.pure a : MM α) := fun p => ⟨p, .ok a, fun _ _ => rfl⟩

theorem Quiet.throw {α} (e : PyErr) : Quiet (MM.throw e : MM α) := fun p => ⟨p, .error (.err e), fun _ _ => rfl⟩

theorem Quiet.dict (f : Params → Params) : Quiet (MM.modifyParams f) := fun p => ⟨f p, .ok (), fun _ _ => rfl⟩

theorem Quiet.readParams {β} {f : World → MM β} (hf : ∀ w v, w.params = v.params → f w = f v) (h : ∀ w, Quiet (f w)) : Quiet (MM.get >>= f) := by
  intro p
  obtain ⟨q, r, hq⟩ := h (blank p) p
  refine ⟨q, r, fun d k => ?_⟩
  show f ⟨d, k, p⟩ ⟨d, k, p⟩ = _
  rw [hf ⟨d, k, p⟩ (blank p) rfl]
  exact hq d k

theorem processData_quiet {TS} (E : MEnv TS) (data : MData) : Quiet (processData E data) := by
  unfold processData
  cases data with
  | other => exact Quiet.throw _
  | frame f =>
    dsimp only
    refine Quiet.readParams (fun w v h => by rw [h]) fun w => ?_
    refine (Quiet.of _).bind fun sizes => (Quiet.dict _).bind fun _ => (Quiet.dict _).bind fun _ => (Quiet.of _).bind fun proc => ?_
    split
    · refine (Quiet.of _).bind fun t => (Quiet.dict _).bind fun _ => ?_
      exact Quiet.readParams (fun w v h => by rw [h]) fun w => (Quiet.of _).bind fun c => Quiet.pure _
    · exact Quiet.of _

/-- `predict` on a detector with a network: the files do not matter, and only the params change -/
theorem predict_quiet {TS} (E : MEnv TS) (data : MData) {d : Det} (hd : d.model.isSome) (p : Params) :
    ∃ q r, ∀ k, Multi.predict E data ⟨d, k, p⟩ = (⟨d, k, q⟩, r) := by
  obtain ⟨q, r, h⟩ := processData_quiet E data p
  have hb : ∀ u, Multi.predict E data u = MM.bind (processData E data) (fun x => ensureModel >>= fun _ => MM.get >>= fun w =>
    MM.of (detectWith E w.det x.1 x.2.1)) u := fun _ => rfl
  obtain ⟨m, hm⟩ := Option.isSome_iff_exists.1 hd
  cases r with
  | error e => exact ⟨q, .error e, fun k => by rw [hb]; unfold MM.bind; rw [h]⟩
  | ok a =>
    refine ⟨q, detectWith E d a.1 a.2.1, fun k => ?_⟩
    rw [hb]
    unfold MM.bind
    rw [h]
    show MM.bind ensureModel _ _ = _
    have he : ensureModel ⟨d, k, q⟩ = (⟨d, k, q⟩, .ok ()) := by
      unfold ensureModel
      dsimp only
      rw [hm]
    unfold MM.bind
    rw [he]
    rfl

/-- **C124** (asking leaves no trace). A program that asks a detector with a network, by `predict` calls with whatever params, tables and outcomes,
leaves the detector and the files as they were. -/
theorem C124_no_trace {TS} (E : MEnv TS) (cs : List Call) (hc : ∀ c ∈ cs, Asks c) (w : World) (hw : w.det.model.isSome) :
    (leave E w cs).det = w.det ∧ (leave E w cs).disk = w.disk := by
  induction cs generalizing w with
  | nil => exact ⟨rfl, rfl⟩
  | cons c cs ih =>
    have h1 : (doCall E w c).1.det = w.det ∧ (doCall E w c).1.disk = w.disk := by
      have := hc c List.mem_cons_self
      cases c with
      | params p => exact ⟨rfl, rfl⟩
      | predict data =>
        obtain ⟨q, r, h⟩ := predict_quiet E data hw w.params
        have : doCall E w (.predict data) = (⟨w.det, w.disk, q⟩, r) := h w.disk
        rw [this]
        exact ⟨rfl, rfl⟩
      | _ => cases this
    have := ih (fun c h => hc c (List.mem_cons_of_mem _ h)) (doCall E w c).1 (by rw [h1.1]; exact hw)
    exact ⟨this.1.trans h1.1, this.2.trans h1.2⟩

/-- **C124** (asking changes nothing afterwards). So whatever a program does next, with params of its own, has the outcomes that it has without the
questions. -/
theorem C124_unasked {TS} (E : MEnv TS) (cs : List Call) (hc : ∀ c ∈ cs, Asks c) (w : World) (hw : w.det.model.isSome) (p : Params)
    (next : List Call) : outcomes E (leave E w cs) (.params p :: next) = outcomes E w (.params p :: next) := by
  obtain ⟨h1, h2⟩ := C124_no_trace E cs hc w hw
  unfold outcomes doCall
  rw [h1, h2]

/-- **C124** (the answers). Two detectors, with whatever histories and files, are trained with the same params and table. If this training returns on
a new detector without files, it returns on both; and whatever they are asked afterwards, their answers are the same. -/
theorem C124_answers {TS} (E : MEnv TS) (data : MData) (w v : World) (hp : w.params = v.params)
    (h : (Multi.fit E data (blank w.params)).2 = .ok ()) (cs : List Call) (hc : ∀ c ∈ cs, Asks c) :
    (Multi.fit E data w).2 = .ok () ∧ (Multi.fit E data v).2 = .ok () ∧
      outcomes E (Multi.fit E data w).1 cs = outcomes E (Multi.fit E data v).1 cs := by
  have key : ∀ u : World, u.params = w.params → (Multi.fit E data u).2 = .ok () ∧
      (Multi.fit E data u).1.params = (Multi.fit E data (blank w.params)).1.params ∧
      (Multi.fit E data u).1.det = (Multi.fit E data (blank w.params)).1.det ∧ (Multi.fit E data u).1.det.model.isSome := by
    intro u hu
    rcases fit_twin E data (blank w.params) u ⟨hu.symm, fun _ => rfl⟩ with h1 | ⟨e, h1, h2⟩ | ⟨a, h1, h2, h3, h4, h5⟩
    · rw [h] at h1; cases h1
    · rw [h] at h1; cases h1
    · exact ⟨h2, h3.symm, h4.symm, h4 ▸ h5⟩
  obtain ⟨a1, a2, a3, a4⟩ := key w rfl
  obtain ⟨b1, b2, b3, -⟩ := key v hp.symm
  refine ⟨a1, b1, ?_⟩
  rw [← b2] at a2
  rw [← b3] at a3
  revert a2 a3 a4
  generalize (Multi.fit E data w).1 = x
  generalize (Multi.fit E data v).1 = y
  clear a1 b1 b2 b3 key h hp
  induction cs generalizing x y with
  | nil => intros; rfl
  | cons c cs ih =>
    intro a2 a3 a4
    obtain ⟨d, k, q⟩ := x
    obtain ⟨d', k', q'⟩ := y
    dsimp only at a2 a3 a4
    subst a2 a3
    have hc1 := hc c List.mem_cons_self
    have hc2 := fun c h => hc c (List.mem_cons_of_mem _ h)
    unfold outcomes
    cases c with
    | params p => exact congrArg _ (ih hc2 _ _ rfl rfl a4)
    | predict t =>
      obtain ⟨q2, r, h⟩ := predict_quiet E t a4 q
      have h1 : ∀ k, doCall E ⟨d, k, q⟩ (.predict t) = (⟨d, k, q2⟩, r) := h
      rw [h1, h1]
      exact congrArg _ (ih hc2 _ _ rfl rfl a4)
    | _ => cases hc1

/-- The case occurs, with the training of the code: on a new detector without files this training returns, and the question is answered; one detector
is new and finds a damaged file, the other was trained with another table before. -/
example : (Multi.fit demoT.env (.frame calmTrain) (blank trainParams)).2 = .ok () ∧
    (match outcomes demoT.env (Multi.fit demoT.env (.frame calmTrain) ⟨{}, fun _ => .garbage, trainParams⟩).1
        [.params trainParams, .predict (.frame calmTest)] with
      | [_, .ok items] => !items.isEmpty
      | _ => false) = true ∧
    (leave demoT.env (blank trainParams) [.fit (.frame (addFrame calmK calmTrain)), .params trainParams]).det.model.isSome := by
  refine ⟨?_, by decide +kernel, by decide +kernel⟩
  have : (match (Multi.fit demoT.env (.frame calmTrain) (blank trainParams)).2 with | .ok () => true | _ => false) = true := by decide +kernel
  generalize (Multi.fit demoT.env (.frame calmTrain) (blank trainParams)).2 = r at this
  cases r with
  | error e => cases this
  | ok u => rfl

/-- The exception occurs: without epochs the training of a new detector raises `FileNotFoundError` if there are no files, and returns if there is a
checkpoint from another training. -/
example : raised (Multi.fit (demoE loss0) (.frame demoTrain) (blank demoStale.params)).2 .fileNotFound = true ∧
    returned (Multi.fit (demoE loss0) (.frame demoTrain) demoStale).2 (fun _ => true) = true := by decide +kernel

end Verif
