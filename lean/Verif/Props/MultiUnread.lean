import Verif.Props.MultiTrained

/-!
# Theorems: parameters that training does not read

C120.
-/

namespace Verif

namespace Spec

open Multi

/-- dicts that agree except perhaps on `dropout` and `gamma` -/
def SameButUnread (p q : Params) : Prop := ∀ k, k ≠ "dropout" → k ≠ "gamma" → p k = q k

/-- what a program can do with a detector; `params` is the dict it passes to the calls that follow -/
inductive Call where
  | params (p : Params)
  | fit (data : MData)
  | predict (data : MData)
  | load (path : Option String)
  | path (s : Option String)
  | file (s : String) (f : File)
  | new

/-- the same calls, with params that agree except perhaps on `dropout` and `gamma` -/
inductive SameCall : Call → Call → Prop where
  | params {p q} (h : SameButUnread p q) : SameCall (.params p) (.params q)
  | same (c : Call) : SameCall c c

/-- one call: what it leaves and what it returns -/
def doCall {TS} (E : MEnv TS) (w : World) : Call → World × Except Stop (List Multi.Item)
  | .params p => ({ w with params := p }, .ok [])
  | .fit data => let r := Multi.fit E data w; (r.1, r.2.map fun _ => [])
  | .predict data => Multi.predict E data w
  | .load s => let r := loadCheckpoint s w; (r.1, r.2.map fun _ => [])
  | .path s => ({ w with det := { w.det with modelPath := s } }, .ok [])
  | .file s f => ({ w with disk := fun x => if x = s then f else w.disk x }, .ok [])
  | .new => ({ w with det := {} }, .ok [])

/-- the outcomes of a program -/
def outcomes {TS} (E : MEnv TS) : World → List Call → List (Except Stop (List Multi.Item))
  | _, [] => []
  | w, c :: cs => (doCall E w c).2 :: outcomes E (doCall E w c).1 cs

end Spec

open Multi Spec

/-! ### forgetting the two entries -/

def forgetP (p : Params) : Params := fun k => if k = "dropout" ∨ k = "gamma" then none else p k

def forgetC (c : Config) : Config := { c with extra := forgetP c.extra }

def forgetM (m : NetObj) : NetObj := ⟨forgetC m.config, m.net⟩

def forgetK (k : Ckpt) : Ckpt := { k with config := forgetC k.config }

def forgetF : File → File
  | .missing => .missing
  | .garbage => .garbage
  | .ckpt k => .ckpt (forgetK k)

def forgetD (d : Det) : Det := { d with config := d.config.map forgetC, model := d.model.map forgetM }

def forgetW (w : World) : World := ⟨forgetD w.det, fun x => forgetF (w.disk x), forgetP w.params⟩

theorem forgetP_eq {p q : Params} : forgetP p = forgetP q ↔ SameButUnread p q := by
  constructor
  · intro h k h1 h2
    have := congrFun h k
    simpa [forgetP, h1, h2] using this
  · intro h
    funext k
    unfold forgetP
    split
    · rfl
    · rename_i hk
      rw [not_or] at hk
      exact h k hk.1 hk.2

/-- `y` does on the forgetful world what `x` does on the world -/
def Along {α} (x y : MM α) (e : α → α) : Prop := ∀ w, y (forgetW w) = (forgetW (x w).1, (x w).2.map e)

theorem Along.bind {α β} {x y : MM α} {f g : α → MM β} {e : α → α} {e' : β → β} (h : Along x y e) (h' : ∀ a, Along (f a) (g (e a)) e') :
    Along (x >>= f) (y >>= g) e' := by
  intro w
  show MM.bind y g (forgetW w) = (forgetW (MM.bind x f w).1, (MM.bind x f w).2.map e')
  unfold MM.bind
  rw [h w]
  rcases hx : x w with ⟨w1, r⟩
  cases r with
  | error s => rfl
  | ok a => exact h' a w1

theorem Along.get : Along MM.get MM.get forgetW := fun _ => rfl

theorem Along.pure {α} {a : α} {e : α → α} : Along (Pure.pure a) (Pure.pure (e a)) e := fun _ => rfl

theorem Along.throw {α} {s : PyErr} {e : α → α} : Along (MM.throw s) (MM.throw s) e := fun _ => rfl

theorem Along.of {α} {x y : Except Stop α} {e : α → α} (h : y = x.map e) : Along (MM.of x) (MM.of y) e := by
  intro w
  rw [h]
  rfl

theorem Along.same {α} {x : Except Stop α} : Along (MM.of x) (MM.of x) id := by
  refine Along.of ?_
  cases x <;> rfl

theorem Along.det {f g : Det → Det} (h : ∀ d, g (forgetD d) = forgetD (f d)) : Along (MM.modifyDet f) (MM.modifyDet g) id := by
  intro w
  show ((⟨g (forgetD w.det), fun x => forgetF (w.disk x), forgetP w.params⟩ : World), Except.ok ()) = _
  rw [h]
  rfl

theorem Along.dict {f : Params → Params} (h : ∀ p, f (forgetP p) = forgetP (f p)) : Along (MM.modifyParams f) (MM.modifyParams f) id := by
  intro w
  show ((⟨forgetD w.det, fun x => forgetF (w.disk x), f (forgetP w.params)⟩ : World), Except.ok ()) = _
  rw [h]
  rfl

/-! ### processing -/

theorem forget_set {p : Params} {k : String} {v : PyVal} (h1 : k ≠ "dropout") (h2 : k ≠ "gamma") :
    (forgetP p).set k v = forgetP (p.set k v) := by
  funext x
  unfold forgetP Params.set
  by_cases hx : x = k
  · subst hx
    simp [h1, h2]
  · simp [hx]

theorem ofParams_forget (p : Params) (dim input tw : Nat) :
    Config.ofParams (forgetP p) dim input tw = (Config.ofParams p dim input tw).map forgetC := by
  unfold Config.ofParams
  rw [show readNat (forgetP p) "cnn_kernel_size" = readNat p "cnn_kernel_size" from rfl,
    show readNat (forgetP p) "gat_window_size" = readNat p "gat_window_size" from rfl,
    show readNat (forgetP p) "hidden_size" = readNat p "hidden_size" from rfl, show readInt (forgetP p) "epochs" = readInt p "epochs" from rfl,
    show readNat (forgetP p) "batch_size" = readNat p "batch_size" from rfl, show readNat (forgetP p) "interval" = readNat p "interval" from rfl,
    show readNat (forgetP p) "horizon" = readNat p "horizon" from rfl, show readStr (forgetP p) "save" = readStr p "save" from rfl,
    show readRat (forgetP p) "train_ratio" = readRat p "train_ratio" from rfl, show readRat (forgetP p) "val_ratio" = readRat p "val_ratio" from rfl,
    show readRat (forgetP p) "level" = readRat p "level" from rfl]
  cases readNat p "cnn_kernel_size" 7 1 with
  | error => rfl
  | ok => ?_
  cases readNat p "gat_window_size" 100 1 with
  | error => rfl
  | ok => ?_
  cases readNat p "hidden_size" 100 1 with
  | error => rfl
  | ok => ?_
  cases readInt p "epochs" 100 with
  | error => rfl
  | ok => ?_
  cases readNat p "batch_size" 128 1 with
  | error => rfl
  | ok => ?_
  cases readNat p "interval" 10 1 with
  | error => rfl
  | ok => ?_
  cases readNat p "horizon" 1 1 with
  | error => rfl
  | ok => ?_
  cases readStr p "save" "model" with
  | error => rfl
  | ok => ?_
  cases readRat p "train_ratio" (roundDouble (8 / 10)) with
  | error => rfl
  | ok => ?_
  cases readRat p "val_ratio" (roundDouble (1 / 10)) with
  | error => rfl
  | ok => ?_
  cases readRat p "level" (roundDouble (8 / 10)) with
  | error => rfl
  | ok => rfl

theorem processData_forget {TS} (E : MEnv TS) (data : MData) :
    Along (processData E data) (processData E data) fun r => (r.1, r.2.1, forgetC r.2.2) := by
  unfold processData
  cases data with
  | other => exact Along.throw
  | frame f =>
    refine Along.get.bind fun w => ?_
    refine (Along.same (x := windowSizes E (w.params "sliding_window"))).bind fun sizes => ?_
    refine (Along.dict fun p => ?_).bind fun _ => ?_
    · rw [forget_set (by decide) (by decide), forget_set (by decide) (by decide)]
    refine (Along.dict fun p => ?_).bind fun _ => ?_
    · funext k
      by_cases h1 : k ∈ validFields <;> by_cases h2 : k = "dropout" ∨ k = "gamma" <;> simp [forgetP, h1, h2]
    refine (Along.same (x := lift (Processor.init E.toTableEnv ((w.params "fill_na_method").getD (.str "Linear"))
      ((w.params "fill_na_value").getD (.float (.fin 0)))))).bind fun proc => ?_
    split
    · refine Along.same.bind fun t => ?_
      refine (Along.dict fun p => forget_set (by decide) (by decide)).bind fun _ => ?_
      refine Along.get.bind fun w => ?_
      refine (Along.of (ofParams_forget w.params _ _ _)).bind fun c => ?_
      exact fun _ => rfl
    · exact Along.of rfl

/-! ### the rest -/

/-- training and evaluation of the environment do not read the two entries -/
structure Heedless {TS} (E : MEnv TS) : Prop where
  init : ∀ c, E.initState (forgetC c) = E.initState c
  step : ∀ c ts b, E.step (forgetC c) ts b = E.step c ts b
  weights : ∀ c ts, E.weights (forgetC c) ts = E.weights c ts
  loss : ∀ c n b, E.evalLoss (forgetC c) n b = E.evalLoss c n b

theorem env_blind {G O} (L : TrainEnv G O) : Heedless L.env := ⟨fun _ => rfl, fun _ _ _ => rfl, fun _ _ => rfl, fun _ _ _ => rfl⟩

theorem inference_forget {TS} (E : MEnv TS) (d : Det) (values : List (List ℚ)) : inference E (forgetD d) values = inference E d values := by
  obtain ⟨c, m, p, t, s1, s2, mp, v⟩ := d
  cases c with
  | none => rfl
  | some c =>
    unfold inference
    dsimp only [forgetD, Option.map_some, forgetC]
    cases c.base with
    | none => rfl
    | some base =>
      dsimp only
      cases m with
      | none => rfl
      | some m =>
        obtain ⟨mc, n⟩ := m
        cases n with
        | none => rfl
        | some N =>
          cases p with
          | none => rfl
          | some p => rfl

theorem thresholds_forget {TS} (E : MEnv TS) (d : Det) (values : List (List ℚ)) :
    computeThresholds E (forgetD d) values = computeThresholds E d values := by
  unfold computeThresholds
  rw [inference_forget]
  cases inference E d values with
  | error => rfl
  | ok o =>
    obtain ⟨c, m, p, t, s1, s2, mp, v⟩ := d
    obtain ⟨o1, o2, o3⟩ := o
    cases o2 <;> cases c <;> rfl

theorem detectWith_forget {TS} (E : MEnv TS) (d : Det) (f : Frame) (t : Table) : detectWith E (forgetD d) f t = detectWith E d f t := by
  unfold detectWith
  simp only [inference_forget]
  obtain ⟨c, m, p, t, s1, s2, mp, v⟩ := d
  cases c <;> rfl

theorem loadCheckpoint_forget (path : Option String) : Along (loadCheckpoint path) (loadCheckpoint path) id := by
  unfold loadCheckpoint
  refine Along.get.bind fun w => ?_
  cases path with
  | none => exact Along.throw
  | some p =>
    dsimp only
    rw [show (forgetW w).disk p = forgetF (w.disk p) from rfl]
    cases w.disk p with
    | missing => exact Along.throw
    | garbage => exact Along.throw
    | ckpt k => exact Along.det fun d => rfl

theorem ensureModel_forget : Along ensureModel ensureModel id := by
  intro w
  unfold ensureModel
  rw [show (forgetW w).det.model = w.det.model.map forgetM from rfl, show (forgetW w).det.modelPath = w.det.modelPath from rfl,
    loadCheckpoint_forget]
  cases w.det.model with
  | some m => rfl
  | none =>
    dsimp only [Option.map_none]
    rcases loadCheckpoint w.det.modelPath w with ⟨w', r⟩
    cases r <;> rfl

theorem saveCheckpoint_forget (c : Config) (net : Option Net) : Along (saveCheckpoint c net) (saveCheckpoint (forgetC c) net) id := by
  unfold saveCheckpoint
  refine Along.get.bind fun w => ?_
  have hf : ∀ (path : String) (k : Ckpt), Along (MM.writeFile path k) (MM.writeFile path (forgetK k)) id := by
    intro path k v
    unfold MM.writeFile
    refine Prod.ext ?_ rfl
    refine congrArg (fun d => (⟨forgetD v.det, d, forgetP v.params⟩ : World)) ?_
    funext x
    show (if x = path then File.ckpt (forgetK k) else forgetF (v.disk x)) = forgetF (if x = path then File.ckpt k else v.disk x)
    split <;> rfl
  exact hf _ _

theorem trainEpoch_forget {TS} {E : MEnv TS} (hE : Heedless E) (c : Config) (ss : List Sample) (ts : TS) :
    trainEpoch E (forgetC c) ss ts = trainEpoch E c ss ts := by
  unfold trainEpoch
  simp only [hE.step]
  rfl

theorem evalEpoch_forget {TS} {E : MEnv TS} (hE : Heedless E) (c : Config) (n : Option Net) (bs : List (List Sample)) :
    evalEpoch E (forgetC c) n bs = evalEpoch E c n bs := by
  unfold evalEpoch
  simp only [hE.loss]

theorem epoch_forget {TS} {E : MEnv TS} (hE : Heedless E) (c : Config) (train val : List Sample) (s : TS × PyFloat) :
    Along (epoch E c train val s) (epoch E (forgetC c) train val s) id := by
  unfold epoch
  rw [show trainError (forgetC c) train = trainError c train from rfl, show evalError (forgetC c) val = evalError c val from rfl]
  cases trainError c train with
  | some e => exact Along.throw
  | none =>
    dsimp only
    cases evalError c val with
    | some e => exact Along.throw
    | none =>
      dsimp only
      rw [trainEpoch_forget hE, hE.weights, evalEpoch_forget hE, show (forgetC c).batchSize = c.batchSize from rfl]
      split
      · refine Along.bind (e := id) (Along.det (fun d => ?_)) fun _ => ?_
        · rfl
        refine (saveCheckpoint_forget _ _).bind fun _ => ?_
        exact fun _ => rfl
      · exact fun _ => rfl

theorem epochs_forget {TS} {E : MEnv TS} (hE : Heedless E) (c : Config) (train val : List Sample) (n : Nat) (s : TS × PyFloat) :
    Along (epochs E c train val n s) (epochs E (forgetC c) train val n s) id := by
  induction n generalizing s with
  | zero => exact fun _ => rfl
  | succ n ih =>
    unfold epochs
    exact (epoch_forget hE c train val s).bind fun s' => ih s'

theorem fit_forget {TS} {E : MEnv TS} (hE : Heedless E) (data : MData) : Along (Multi.fit E data) (Multi.fit E data) id := by
  unfold Multi.fit
  refine (processData_forget E data).bind fun r => ?_
  obtain ⟨f, t, c⟩ := r
  dsimp only
  refine Along.bind (e := id) (Along.det (fun d => ?_)) fun _ => ?_
  · rfl
  refine Along.same.bind fun pct => ?_
  refine Along.bind (e := id) (Along.det (fun d => ?_)) fun _ => ?_
  · rfl
  rw [show split (forgetC c) t.rows = split c t.rows from rfl]
  rcases split c t.rows with ⟨train, val⟩
  dsimp only
  split
  · exact Along.throw
  · refine Along.bind (e := id) (Along.det (fun d => ?_)) fun _ => ?_
    · rfl
    refine Along.same.bind fun ts => ?_
    refine Along.same.bind fun vs => ?_
    simp only [id_eq]
    split
    · exact Along.throw
    · refine Along.bind (e := id) ?_ fun _ => ?_
      · have h := epochs_forget hE { c with base := some (colFold npMax c.dataDim train, colFold npMin c.dataDim train) } ts vs c.epochs.toNat
          (E.initState { c with base := some (colFold npMax c.dataDim train, colFold npMin c.dataDim train) }, .pinf)
        rw [← hE.init] at h
        rw [← hE.init]
        exact h
      refine (loadCheckpoint_forget _).bind fun _ => ?_
      refine Along.get.bind fun w => ?_
      refine (Along.of (e := id) ?_).bind fun r => ?_
      · rw [show (forgetW w).det = forgetD w.det from rfl, thresholds_forget]
        cases computeThresholds E w.det train <;> rfl
      exact Along.det fun d => rfl

theorem predict_forget {TS} (E : MEnv TS) (data : MData) : Along (Multi.predict E data) (Multi.predict E data) id := by
  unfold Multi.predict
  refine (processData_forget E data).bind fun r => ?_
  obtain ⟨f, t, c⟩ := r
  dsimp only
  refine ensureModel_forget.bind fun _ => ?_
  refine Along.get.bind fun w => ?_
  refine Along.of ?_
  rw [show (forgetW w).det = forgetD w.det from rfl, detectWith_forget]
  cases detectWith E w.det f t <;> rfl

theorem call_forget {TS} {E : MEnv TS} (hE : Heedless E) {w w' : World} {c c' : Call} (hw : forgetW w = forgetW w') (hc : SameCall c c') :
    (doCall E w c).2 = (doCall E w' c').2 ∧ forgetW (doCall E w c).1 = forgetW (doCall E w' c').1 := by
  have key : ∀ {α} {x : MM α}, Along x x id → (x w).2 = (x w').2 ∧ forgetW (x w).1 = forgetW (x w').1 := by
    intro α x hx
    have h1 := hx w
    have h2 := hx w'
    rw [hw, h2] at h1
    obtain ⟨e1, e2⟩ := Prod.ext_iff.1 h1
    refine ⟨?_, e1.symm⟩
    have : ∀ r : Except Stop α, r.map id = r := fun r => by cases r <;> rfl
    rw [this, this] at e2
    exact e2.symm
  have hdet : forgetD w.det = forgetD w'.det := congrArg World.det hw
  have hdisk : (fun x => forgetF (w.disk x)) = fun x => forgetF (w'.disk x) := congrArg World.disk hw
  have hpar : forgetP w.params = forgetP w'.params := congrArg World.params hw
  cases hc with
  | params h =>
    refine ⟨rfl, ?_⟩
    dsimp only [doCall, forgetW]
    rw [hdet, hdisk, forgetP_eq.2 h]
  | same =>
    cases c with
    | params p =>
      refine ⟨rfl, ?_⟩
      dsimp only [doCall, forgetW]
      rw [hdet, hdisk]
    | fit data =>
      obtain ⟨h1, h2⟩ := key (fit_forget hE data)
      exact ⟨by dsimp only [doCall]; rw [h1], h2⟩
    | predict data => exact key (predict_forget E data)
    | load path =>
      obtain ⟨h1, h2⟩ := key (loadCheckpoint_forget path)
      exact ⟨by dsimp only [doCall]; rw [h1], h2⟩
    | path s =>
      refine ⟨rfl, ?_⟩
      dsimp only [doCall, forgetW]
      rw [hdisk, hpar]
      congr 1
      have := congrArg (fun d : Det => { d with modelPath := s }) hdet
      exact this
    | file s f =>
      refine ⟨rfl, ?_⟩
      dsimp only [doCall, forgetW]
      rw [hdet, hpar]
      congr 1
      funext x
      split
      · rfl
      · exact congrFun hdisk x
    | new =>
      refine ⟨rfl, ?_⟩
      dsimp only [doCall, forgetW]
      rw [hdisk, hpar]

theorem outcomes_forget {TS} {E : MEnv TS} (hE : Heedless E) {w w' : World} {cs cs' : List Call} (hw : forgetW w = forgetW w')
    (h : List.Forall₂ SameCall cs cs') : outcomes E w cs = outcomes E w' cs' := by
  induction h generalizing w w' with
  | nil => rfl
  | cons hc _ ih =>
    obtain ⟨h1, h2⟩ := call_forget hE hw hc
    unfold outcomes
    rw [h1, ih h2]

/-- **C120** (defect: intended property refuted). Whatever a program does with detectors (any sequence of `fit`, `predict`, loading of checkpoints,
new detectors, replaced files, changes of the params dict), the outcome of every call is the same if the values of `dropout` and `gamma` in its dicts are changed,
added or removed. -/
theorem C120_unread {G O} (L : TrainEnv G O) (w : World) {cs cs' : List Call} (h : List.Forall₂ SameCall cs cs') :
    outcomes L.env w cs = outcomes L.env w cs' :=
  outcomes_forget (env_blind L) rfl h

/-- **C120**. The weights that training produces are the same as well. -/
theorem C120_weights {G O} (L : TrainEnv G O) (w : World) {p q : Params} (h : SameButUnread p q) (data : MData) :
    (Multi.fit L.env data { w with params := p }).1.det.model.map (·.net) =
      (Multi.fit L.env data { w with params := q }).1.det.model.map (·.net) := by
  have h1 := fit_forget (env_blind L) data { w with params := p }
  have h2 := fit_forget (env_blind L) data { w with params := q }
  have e : forgetW { w with params := p } = forgetW { w with params := q } := by
    dsimp only [forgetW]
    rw [forgetP_eq.2 h]
  rw [e, h2] at h1
  have h3 := congrArg (fun r => r.1.det.model.map (·.net)) h1
  simp only [forgetW, forgetD, Option.map_map] at h3
  exact h3.symm

/-! ### a concrete case -/

/-- params with `dropout` 0 and `gamma` 7 -/
def dropParams : Params := fun k => if k = "dropout" then some (.int 0) else if k = "gamma" then some (.int 7) else trainParams k

theorem drop_same : SameButUnread dropParams trainParams := by
  intro k h1 h2
  simp [dropParams, h1, h2]

/-- a program that trains and predicts, with and without these entries: both calls return, the second one with results -/
example : List.Forall₂ SameCall [.params dropParams, .fit (.frame demoTrain), .params dropParams, .predict (.frame demoTrain)]
      [.params trainParams, .fit (.frame demoTrain), .params trainParams, .predict (.frame demoTrain)] ∧
    (match outcomes demoT.env ⟨{}, fun _ => .missing, fun _ => none⟩
      [.params dropParams, .fit (.frame demoTrain), .params dropParams, .predict (.frame demoTrain)] with
      | [.ok _, .ok _, .ok _, .ok (_ :: _)] => true
      | _ => false) = true := by
  refine ⟨.cons (.params drop_same) (.cons (.same _) (.cons (.params drop_same) (.cons (.same _) .nil))), by decide +kernel⟩

end Verif
