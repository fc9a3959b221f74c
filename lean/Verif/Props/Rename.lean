import Verif.Props.Streaming
import Verif.Props.MultiTotal

/-!
# Names of variables (C111, C113)

What the names of the columns of a table decide in `fit` and `predict`: their order, and whether one is called `timestamp`.
-/

namespace Verif

open Multi Spec

/-- the table with other column names -/
def Spec.renamed (σ : String → String) (f : Frame) : Frame := ⟨f.index, f.cols.map fun c => ⟨σ c.name, c.cells⟩⟩

/-- `σ` keeps the alphabetical order of the column names of `f` (in particular it maps different names to different names) -/
def Spec.OrderKept (σ : String → String) (f : Frame) : Prop :=
  ∀ a ∈ f.cols, ∀ b ∈ f.cols, a.name ≤ b.name ↔ σ a.name ≤ σ b.name

/-- the result with other names in its explanation -/
def Spec.renamedItem (σ : String → String) (x : Multi.Item) : Multi.Item :=
  { x with interpretation := x.interpretation.map fun c => { c with name := σ c.name, changedVars := c.changedVars.map σ } }

/-- the same state but for the names of the variables kept by the detector -/
def Spec.SameButNames (w w' : World) : Prop :=
  w'.disk = w.disk ∧ w'.params = w.params ∧ { w'.det with vars := w.det.vars } = w.det

theorem renamed_sortIndex (E : TableEnv) (σ : String → String) (f : Frame) :
    sortIndex E (renamed σ f) = renamed σ (sortIndex E f) := by
  simp [sortIndex, renamed, Function.comp_def]

theorem orderKept_sortIndex (E : TableEnv) {σ : String → String} {f : Frame} (h : OrderKept σ f) : OrderKept σ (sortIndex E f) := by
  intro a ha b hb
  simp only [sortIndex, List.mem_map] at ha hb
  obtain ⟨a', ha', rfl⟩ := ha
  obtain ⟨b', hb', rfl⟩ := hb
  exact h a' ha' b' hb'

theorem renamed_sortedNames {σ : String → String} {f : Frame} (h : OrderKept σ f) :
    sortedNames (renamed σ f) = (sortedNames f).map σ := by
  simp only [sortedNames, renamed, List.map_map]
  rw [List.map_insertionSort (r := (· ≤ ·)) (s := (· ≤ ·))]
  · rw [List.map_map]; rfl
  · intro a ha b hb
    simp only [List.mem_map] at ha hb
    obtain ⟨a', ha', rfl⟩ := ha
    obtain ⟨b', hb', rfl⟩ := hb
    exact h a' ha' b' hb'

theorem orderKept_inj {σ : String → String} {f : Frame} (h : OrderKept σ f) {a b : Column} (ha : a ∈ f.cols) (hb : b ∈ f.cols) :
    σ a.name = σ b.name ↔ a.name = b.name := by
  constructor
  · intro he
    exact le_antisymm ((h a ha b hb).2 he.le) ((h b hb a ha).2 he.ge)
  · intro he; rw [he]

theorem renamed_selectCols {σ : String → String} {f : Frame} (h : OrderKept σ f) :
    selectCols (renamed σ f) (sortedNames (renamed σ f)) = renamed σ (selectCols f (sortedNames f)) := by
  rw [renamed_sortedNames h]
  simp only [selectCols, renamed, Frame.mk.injEq, true_and]
  rw [List.map_flatMap, List.flatMap_map]
  apply List.flatMap_congr
  intro n hn
  have hn' : n ∈ f.cols.map (·.name) := (List.mem_insertionSort _).1 hn
  obtain ⟨b, hb, rfl⟩ := List.mem_map.1 hn'
  rw [List.filter_map]
  congr 1
  apply List.filter_congr
  intro a ha
  simp only [Function.comp, decide_eq_decide]
  exact orderKept_inj h ha hb

theorem renamed_process (E : TableEnv) (p : Processor) {σ : String → String} {f : Frame} (h : OrderKept σ f) :
    p.process E (.frame (renamed σ f)) = (p.process E (.frame f)).map fun t => { t with names := t.names.map σ } := by
  have hs : selectCols (sortIndex E (renamed σ f)) (sortedNames (sortIndex E (renamed σ f))) =
      renamed σ (selectCols (sortIndex E f) (sortedNames (sortIndex E f))) := by
    rw [renamed_sortIndex]
    exact renamed_selectCols (orderKept_sortIndex E h)
  simp only [Processor.process, hs]
  generalize selectCols (sortIndex E f) (sortedNames (sortIndex E f)) = g
  have hc : (renamed σ g).convertible = g.convertible := by
    simp [Frame.convertible, renamed, Function.comp_def]
  have hm : (renamed σ g).cols.mapM p.column = g.cols.mapM p.column := by
    simp only [renamed, List.mapM_map]
    rfl
  rw [hc, hm]
  cases g.convertible with
  | false => rfl
  | true =>
    simp only [if_true]
    cases g.cols.mapM p.column with
    | error e => rfl
    | ok cols => simp [renamed, Except.map, Bind.bind, Except.bind, Pure.pure, Except.pure, Function.comp_def]

theorem renamed_ok (σ : String → String) (f : Frame) : (renamed σ f).ok = f.ok := by
  simp [Frame.ok, renamed, Function.comp_def]

theorem renamed_processData {TS} (E : MEnv TS) {σ : String → String} {f : Frame} (h : OrderKept σ f) (w : World) :
    processData E (.frame (renamed σ f)) w = ((processData E (.frame f) w).1, (processData E (.frame f) w).2.map fun r =>
      (renamed σ r.1, { r.2.1 with names := r.2.1.names.map σ }, r.2.2)) := by
  simp only [processData, Bind.bind, MM.bind, MM.get, MM.of, MM.modifyParams, renamed_ok]
  cases windowSizes E (w.params "sliding_window") with
  | error e => rfl
  | ok sizes =>
    simp only []
    cases lift (Processor.init E.toTableEnv ((w.params "fill_na_method").getD (.str "Linear"))
      ((w.params "fill_na_value").getD (.float (.fin 0)))) with
    | error e => rfl
    | ok proc =>
      simp only [renamed_process _ _ h]
      cases f.ok with
      | false => rfl
      | true =>
        simp only [if_true]
        cases proc.process E.toTableEnv (.frame f) with
        | error e => rfl
        | ok t =>
          simp only [Except.map, MM.bind, MM.of, MM.modifyParams, MM.get, List.length_map]
          generalize Config.ofParams _ _ _ _ = C
          cases C <;> rfl

/-! ### predict -/

theorem varName_map (σ : String → String) (vars : List String) (i : Nat) :
    varName (vars.map σ) i = (varName vars i).map σ := by
  simp only [varName, List.getElem?_map]
  cases vars[i]? <;> rfl

theorem mapM_map_except {α β γ ε : Type} (g : α → Except ε β) (k : β → γ) (l : List α) :
    (l.mapM fun a => (g a).map k) = (l.mapM g).map (List.map k) := by
  induction l with
  | nil => rfl
  | cons a t ih =>
    simp only [List.mapM_cons]
    cases g a with
    | error e => rfl
    | ok b =>
      rw [ih]
      cases t.mapM g <;> rfl

theorem packVar_map (E : NumEnv) (σ : String → String) (vars : List String) (contrib : List PyFloat) (attn : List (List ℚ)) (v : Nat) :
    packVar E (vars.map σ) contrib attn v = (packVar E vars contrib attn v).map fun c =>
      { c with name := σ c.name, changedVars := c.changedVars.map σ } := by
  simp only [packVar, List.length_map, varName_map]
  rw [show varName (vars.map σ) = fun a => (varName vars a).map σ from funext (varName_map σ vars), mapM_map_except]
  generalize List.mapM (varName vars) _ = x
  cases x with
  | error e => rfl
  | ok names =>
    cases varName vars v <;> rfl

theorem packItem_map (E : NumEnv) (σ : String → String) (vars : List String) (i : Int) (a : Bool) (s t : ℚ)
    (contrib : List PyFloat) (attn : List (List ℚ)) :
    packItem E (vars.map σ) i a s t contrib attn = (packItem E vars i a s t contrib attn).map (renamedItem σ) := by
  simp only [packItem]
  rw [show packVar E (vars.map σ) contrib attn = _ from funext (packVar_map E σ vars contrib attn), mapM_map_except]
  cases List.mapM (packVar E vars contrib attn) (E.argsortDesc contrib) <;> rfl

theorem packResponse_map (E : NumEnv) (index : List Int) (σ : String → String) (vars : List String) (anomalies : List Bool)
    (scores severity : List ℚ) (contrib : List (List PyFloat)) (attn : List (List (List ℚ))) :
    packResponse E index (vars.map σ) anomalies scores severity contrib attn =
      (packResponse E index vars anomalies scores severity contrib attn).map (List.map (renamedItem σ)) := by
  simp only [packResponse, packItem_map]
  split
  · rfl
  · rw [mapM_map_except]

theorem renamed_detectWith {TS} (E : MEnv TS) (d : Det) (σ : String → String) (f : Frame) (t : Table) :
    detectWith E d (renamed σ f) { t with names := t.names.map σ } = (detectWith E d f t).map (List.map (renamedItem σ)) := by
  have hr : Table.rows { t with names := t.names.map σ } = t.rows := rfl
  simp only [detectWith, hr]
  cases d.config with
  | none => rfl
  | some c =>
    simp only []
    split
    · rfl
    · cases d.threshold with
      | none => rfl
      | some th =>
        simp only []
        cases inference E d t.rows with
        | error e => rfl
        | ok o =>
          obtain ⟨contrib, scores, attn⟩ := o
          simp only [Bind.bind, Except.bind]
          cases contrib with
          | none => rfl
          | some contrib =>
            cases scores with
            | none => rfl
            | some scores =>
              cases attn with
              | none => rfl
              | some attn =>
                simp only []
                cases lift (dynThresholds c.thresholdWindow scores) with
                | error e => rfl
                | ok ths =>
                  simp only [packResponse_map]
                  rw [show (renamed σ f).index = f.index from rfl]
                  generalize packResponse E.toNumEnv f.index t.names _ _ _ _ _ = r
                  cases r <;> rfl

/-- **C111** `predict` reads nothing from the names of the variables but their order: renaming the columns of a table in a way that
keeps it changes only the names in the explanations. The state afterwards and every exception are the same. -/
theorem C111_predict {TS} (E : MEnv TS) (σ : String → String) (f : Frame) (h : OrderKept σ f) (w : World) :
    Multi.predict E (.frame (renamed σ f)) w =
      ((Multi.predict E (.frame f) w).1, (Multi.predict E (.frame f) w).2.map (List.map (renamedItem σ))) := by
  simp only [Multi.predict, Bind.bind, MM.bind, MM.get, MM.of, renamed_processData E h]
  cases processData E (.frame f) w with
  | mk w' r =>
    cases r with
    | error e => rfl
    | ok r =>
      obtain ⟨g, t, c⟩ := r
      simp only [Except.map]
      cases ensureModel w' with
      | mk w'' r =>
        cases r with
        | error e => rfl
        | ok _ => exact congrArg _ (renamed_detectWith E w''.det σ g t)

/-! ### fit -/

/-- the state with other names of variables kept by the detector -/
def World.named (w : World) (v : Option (List String)) : World := { w with det := { w.det with vars := v } }

/-- a computation that neither reads nor sets the names -/
def Blind {α : Type} (x : MM α) : Prop := ∀ w v, x (World.named w v) = (World.named (x w).1 v, (x w).2)

theorem blind_pure {α : Type} (a : α) : Blind (pure a : MM α) := fun _ _ => rfl
theorem blind_of {α : Type} (x : Except Stop α) : Blind (MM.of x) := fun _ _ => rfl
theorem blind_throw {α : Type} (e : PyErr) : Blind (MM.throw e : MM α) := fun _ _ => rfl

theorem blind_modifyDet {g : Det → Det} (hg : ∀ d v, g { d with vars := v } = { g d with vars := v }) : Blind (MM.modifyDet g) := by
  intro w v
  simp only [MM.modifyDet, World.named]
  rw [hg]

theorem blind_bind {α β : Type} {x : MM α} {k : α → MM β} (hx : Blind x) (hk : ∀ a, Blind (k a)) : Blind (x >>= k) := by
  intro w v
  show MM.bind x k _ = (World.named (MM.bind x k w).1 v, (MM.bind x k w).2)
  simp only [MM.bind, hx w v]
  cases x w with
  | mk w' r =>
    cases r with
    | error e => rfl
    | ok a => exact hk a w' v

theorem blind_get {β : Type} {k : World → MM β} (hk : ∀ w v, k (World.named w v) = k w) (hb : ∀ w, Blind (k w)) :
    Blind (MM.get >>= k) := by
  intro w v
  show k (World.named w v) (World.named w v) = (World.named (k w w).1 v, (k w w).2)
  rw [hk, hb]

theorem blind_saveCheckpoint (c : Config) (net : Option Net) : Blind (saveCheckpoint c net) :=
  blind_get (fun _ _ => rfl) fun _ _ _ => rfl

theorem blind_loadCheckpoint (path : Option String) : Blind (loadCheckpoint path) := by
  refine blind_get (fun _ _ => rfl) fun w => ?_
  cases path with
  | none => exact blind_throw _
  | some p =>
    cases h : w.disk p with
    | missing => simp only [h]; exact blind_throw _
    | garbage => simp only [h]; exact blind_throw _
    | ckpt k => simp only [h]; exact blind_modifyDet fun _ _ => rfl

theorem blind_epoch {TS} (E : MEnv TS) (c : Config) (train val : List Sample) (s : TS × PyFloat) : Blind (epoch E c train val s) := by
  unfold epoch
  split
  · exact blind_throw _
  · simp only []
    split
    · exact blind_throw _
    · split
      · refine blind_bind (blind_modifyDet fun _ _ => rfl) fun _ => blind_bind (blind_saveCheckpoint _ _) fun _ => blind_pure _
      · exact blind_pure _

theorem blind_epochs {TS} (E : MEnv TS) (c : Config) (train val : List Sample) (n : Nat) (s : TS × PyFloat) :
    Blind (epochs E c train val n s) := by
  induction n generalizing s with
  | zero => exact blind_pure _
  | succ n ih => exact blind_bind (blind_epoch E c train val s) ih

theorem renamed_pctWeight (window : Nat) {σ : String → String} {f : Frame} (h : OrderKept σ f)
    (ht : ∀ c ∈ f.cols, σ c.name = "timestamp" ↔ c.name = "timestamp") : pctWeight window (renamed σ f) = pctWeight window f := by
  have he : (⟨(renamed σ f).index, (renamed σ f).cols.filter fun c => c.name ≠ "timestamp"⟩ : Frame) =
      renamed σ ⟨f.index, f.cols.filter fun c => c.name ≠ "timestamp"⟩ := by
    simp only [renamed, Frame.mk.injEq, true_and]
    rw [List.filter_map]
    congr 1
    apply List.filter_congr
    intro c hc
    simp only [Function.comp, ne_eq, ht c hc]
  have ho : OrderKept σ ⟨f.index, f.cols.filter fun c => c.name ≠ "timestamp"⟩ := fun a ha b hb =>
    h a (List.mem_of_mem_filter ha) b (List.mem_of_mem_filter hb)
  simp only [pctWeight, he, renamed_selectCols ho]
  rw [show ∀ g : Frame, ((renamed σ g).cols.mapM fun c => astypeFloat c.cells) = g.cols.mapM fun c => astypeFloat c.cells from
    fun g => by simp only [renamed, List.mapM_map]; rfl]

/-- what `fit` does after processing the table and recording configuration and names -/
def fitTail {TS} (E : MEnv TS) (f : Frame) (rows : List (List ℚ)) (c0 : Config) : MM Unit := do
  let pct ← MM.of (pctWeight (c0.thresholdWindow + c0.inputSize) f)
  MM.modifyDet fun d => { d with pct := some pct, modelPath := some (E.joinPath c0.save) }
  let (train, val) := split c0 rows
  if train.isEmpty then MM.throw .valueError
  else
    let base := (colFold npMax c0.dataDim train, colFold npMin c0.dataDim train)
    let c := { c0 with base := some base }
    MM.modifyDet fun d => { d with config := some c }
    let ts ← MM.of (lift ((trainSet c base train).samples E.toNumEnv))
    let vs ← MM.of (lift ((inferSet c base val).samples E.toNumEnv))
    if ts.isEmpty && E.emptyShuffle then MM.throw .valueError
    else
      let _ ← epochs E c ts vs c.epochs.toNat (E.initState c, .pinf)
      loadCheckpoint (some (E.joinPath c0.save))
      let w ← MM.get
      let r ← MM.of (computeThresholds E w.det train)
      MM.modifyDet fun d => { d with threshold := some r.1, scoreMax := some r.2.1, scoreMin := some r.2.2 }

theorem fit_tail {TS} (E : MEnv TS) (data : MData) : Multi.fit E data = (processData E data >>= fun r =>
    MM.modifyDet (fun d => { d with config := some r.2.2, vars := some r.2.1.names }) >>= fun _ => fitTail E r.1 r.2.1.rows r.2.2) := rfl

theorem computeThresholds_named {TS} (E : MEnv TS) (w : World) (v : Option (List String)) (rows : List (List ℚ)) :
    computeThresholds E (World.named w v).det rows = computeThresholds E w.det rows := rfl

theorem blind_fitTail {TS} (E : MEnv TS) (f : Frame) (rows : List (List ℚ)) (c0 : Config) : Blind (fitTail E f rows c0) := by
  unfold fitTail
  refine blind_bind (blind_of _) fun pct => blind_bind (blind_modifyDet fun _ _ => rfl) fun _ => ?_
  generalize split c0 rows = tv
  obtain ⟨train, val⟩ := tv
  simp only []
  split
  · exact blind_throw _
  · refine blind_bind (blind_modifyDet fun _ _ => rfl) fun _ => blind_bind (blind_of _) fun ts => blind_bind (blind_of _) fun vs => ?_
    split
    · exact blind_throw _
    · refine blind_bind (blind_epochs _ _ _ _ _ _) fun _ => blind_bind (blind_loadCheckpoint _) fun _ => ?_
      refine blind_get (fun w v => by rw [computeThresholds_named]) fun w => ?_
      exact blind_bind (blind_of _) fun r => blind_modifyDet fun _ _ => rfl

/-- **C111** `fit` reads nothing from the names of the variables but their order and which one is `timestamp`: after renaming the
columns in a way that keeps both, the call ends the same way and leaves the same state, but for the names it records. -/
theorem C111_fit {TS} (E : MEnv TS) (σ : String → String) (f : Frame) (h : OrderKept σ f)
    (ht : ∀ c ∈ f.cols, σ c.name = "timestamp" ↔ c.name = "timestamp") (w : World) :
    (Multi.fit E (.frame (renamed σ f)) w).2 = (Multi.fit E (.frame f) w).2 ∧
    SameButNames (Multi.fit E (.frame f) w).1 (Multi.fit E (.frame (renamed σ f)) w).1 ∧
    ((Multi.fit E (.frame f) w).2 = .ok () →
      (Multi.fit E (.frame (renamed σ f)) w).1.det.vars = (Multi.fit E (.frame f) w).1.det.vars.map (List.map σ)) := by
  simp only [fit_tail, Bind.bind, MM.bind, renamed_processData E h]
  cases hp : processData E (.frame f) w with
  | mk w1 r =>
    cases r with
    | error e => exact ⟨rfl, ⟨rfl, rfl, rfl⟩, fun h => by cases h⟩
    | ok r =>
      obtain ⟨g, t, c⟩ := r
      obtain ⟨hg, -⟩ := processData_ok hp
      cases hg
      have hr : Table.rows { t with names := t.names.map σ } = t.rows := rfl
      have htail : fitTail E (renamed σ f) t.rows c = fitTail E f t.rows c := by
        simp only [fitTail, renamed_pctWeight _ h ht]
      simp only [Except.map, MM.modifyDet, hr, htail]
      have hb := blind_fitTail E f t.rows c { w1 with det := { w1.det with config := some c, vars := some t.names } }
      have h1 := hb (some (t.names.map σ))
      have h0 := hb (some t.names)
      simp only [World.named] at h1 h0
      rw [h1]
      refine ⟨rfl, ⟨rfl, rfl, rfl⟩, fun _ => ?_⟩
      have := congrArg (fun p => p.1.det.vars) h0
      simp only at this
      rw [this]
      rfl

/-! ### cases -/

def demoNames (n : String) : String := if n = "a" then "pressure" else if n = "b" then "temperature" else n

def demoSwap (n : String) : String := if n = "a" then "b" else if n = "b" then "a" else n

/-- The detector of the examples is trained on the variables `a` and `b`; a table with the variables `pressure` and `temperature` is
answered with the scores of the table with the variables `a` and `b`. -/
example : OrderKept demoNames demoTest ∧ OrderKept demoNames demoTrain ∧
    (∀ c ∈ demoTrain.cols, demoNames c.name = "timestamp" ↔ c.name = "timestamp") ∧ demoTrained.det.vars = some ["a", "b"] ∧
    (∃ w' items, Multi.predict (demoE loss0) (.frame (renamed demoNames demoTest)) demoTrained = (w', .ok items) ∧
      items.map (·.isAnomaly) = [false, true, false, false] ∧
      items.map (fun x => x.interpretation.map (·.name)) ≠ [] ∧
      ∀ x ∈ items, ∀ c ∈ x.interpretation, c.name ∈ ["pressure", "temperature"]) := by
  refine ⟨?_, ?_, ?_, by decide +kernel, ?_⟩
  · unfold OrderKept; decide +kernel
  · unfold OrderKept; decide +kernel
  · decide +kernel
  · have h1 : returned (Multi.predict (demoE loss0) (.frame (renamed demoNames demoTest)) demoTrained).2 (fun items =>
        decide (items.map (·.isAnomaly) = [false, true, false, false] ∧
      items.map (fun x => x.interpretation.map (·.name)) ≠ [] ∧
      ∀ x ∈ items, ∀ c ∈ x.interpretation, c.name ∈ ["pressure", "temperature"])) = true := by decide +kernel
    obtain ⟨w', items, h, hd⟩ := returned_ok h1
    exact ⟨w', items, h, of_decide_eq_true hd⟩

/-- **C111** The order matters: there are a trained detector and a table such that exchanging the names of its two variables changes
which row is an anomaly. -/
theorem C111_order : ∃ (E : MEnv Nat) (w : World) (f : Frame) (σ : String → String), E.WF ∧ Reachable E w ∧
    (∀ a b, σ a = σ b → a = b) ∧
    ∃ w1 w2 items1 items2, Multi.predict E (.frame f) w = (w1, .ok items1) ∧
      Multi.predict E (.frame (renamed σ f)) w = (w2, .ok items2) ∧
      items1.map (·.isAnomaly) ≠ items2.map (·.isAnomaly) := by
  refine ⟨demoE loss0, demoTrained, demoTest, demoSwap, demoE_wf _, demoTrained_reachable, ?_, ?_⟩
  · intro a b
    unfold demoSwap
    split_ifs <;> intro h <;> simp_all
  · have h1 : returned (Multi.predict (demoE loss0) (.frame demoTest) demoTrained).2
        (fun items => decide (items.map (·.isAnomaly) = [false, true, false, false])) = true := by decide +kernel
    have h2 : returned (Multi.predict (demoE loss0) (.frame (renamed demoSwap demoTest)) demoTrained).2
        (fun items => decide (items.map (·.isAnomaly) ≠ [false, true, false, false])) = true := by decide +kernel
    obtain ⟨w1, items1, e1, d1⟩ := returned_ok h1
    obtain ⟨w2, items2, e2, d2⟩ := returned_ok h2
    refine ⟨w1, w2, items1, items2, e1, e2, ?_⟩
    rw [of_decide_eq_true d1]
    exact (of_decide_eq_true d2).symm

/-! ### a column called `timestamp` -/

theorem selected_nodup {f : Frame} (hn : (f.cols.map (·.name)).Nodup) :
    (selectCols f (sortedNames f)).cols.length = f.cols.length := by
  obtain ⟨col, -, h⟩ := selectCols_map hn (names := sortedNames f) fun n h => (sortedNames_perm f).mem_iff.1 h
  rw [h, List.length_map, (sortedNames_perm f).length_eq, List.length_map]

theorem pct_length_timestamp {w : Nat} {f : Frame} {l : List ℚ} (hn : (f.cols.map (·.name)).Nodup)
    (ht : "timestamp" ∈ f.cols.map (·.name)) (h : pctWeight w f = .ok l) : 0 < l.length ∧ l.length + 1 = f.cols.length := by
  unfold pctWeight at h
  dsimp only at h
  split at h
  · cases h
  · rename_i cols hcols
    split at h
    · cases h
    · rename_i hne
      cases h
      have hc := congrArg List.length (mapM_astype hcols)
      rw [List.length_map, selected_nodup (hn.sublist (List.filter_sublist.map _))] at hc
      have h1 := List.length_eq_countP_add_countP (fun c : Column => decide (c.name = "timestamp")) (l := f.cols)
      have h2 : f.cols.countP (fun c => decide (c.name = "timestamp")) = 1 := by
        have := List.count_eq_one_of_mem hn ht
        rw [List.count_eq_countP, List.countP_map] at this
        rw [← this]
        apply List.countP_congr
        intro c _
        simp
      simp only [List.length_map]
      refine ⟨Nat.pos_of_ne_zero hne, ?_⟩
      rw [hc, h1, h2, ← List.countP_eq_length_filter, Nat.add_comm]
      congr 1
      apply List.countP_congr
      intro c _
      simp

/-- **C113** (defect). A column called `timestamp` is a variable of the network but has no weight: a `fit` with such a column in which
some epoch has a loss below infinity only succeeds if there is exactly one other column. -/
theorem C113_timestamp {TS} {E : MEnv TS} (hE : E.WF) {f : Frame} {w w' : World} (hw : Reachable E w)
    (h : Multi.fit E (.frame f) w = (w', .ok ())) (hn : (f.cols.map (·.name)).Nodup) (hts : "timestamp" ∈ f.cols.map (·.name)) :
    ∃ t c train val ts vs, Prepared E w.params f t c train val ts vs ∧
      ((∃ j < c.epochs.toNat, (epochLoss E c ts vs j).lt .pinf = true) → f.cols.length = 2) := by
  have hg : w'.Good := by
    have := (Reachable.fit (.frame f) hw).good hE
    rwa [h] at this
  obtain ⟨f', t, c, hd, ⟨R⟩⟩ := fit_ok h
  cases hd
  have hp := R.prepared hE
  refine ⟨t, c, R.train, R.val, R.ts, R.vs, hp, fun hb => ?_⟩
  obtain ⟨base, N, hU, -⟩ := usable_of_fit hE hg R ((C58_exists _ _).1 hb)
  obtain ⟨hpos, hl⟩ := pct_length_timestamp hn hts R.pct_eq
  have hdim : c.dataDim = f.cols.length := by
    obtain ⟨-, ⟨P, -, htab⟩, -⟩ := hp.accepted
    obtain ⟨g, hgd, -, -, h2, -⟩ := process_ok htab
    cases hgd
    have hn' : ((sortIndex E.toTableEnv f).cols.map (·.name)).Nodup := by
      have : (sortIndex E.toTableEnv f).cols.map (·.name) = f.cols.map (·.name) := by simp [sortIndex]
      rw [this]
      exact hn
    have e : (sortIndex E.toTableEnv f).cols.length = f.cols.length := by simp [sortIndex]
    rw [hp.dim, h2, List.length_map, ← e]
    exact selected_nodup hn'
  obtain ⟨y, hy, -⟩ := hU.weigh (List.replicate c.dataDim 0) List.length_replicate
  unfold weightRow at hy
  split at hy
  · rename_i he
    rw [List.length_replicate] at he
    omega
  · split at hy
    · rename_i he
      have := congrArg List.length he
      simp only [List.length_singleton] at this
      omega
    · rename_i he _
      have := congrArg List.length he
      simp only [List.length_replicate, List.length_singleton] at this
      omega
    · cases hy

/-- `demoTrain` with a third column -/
def demoStamped (name : String) : Frame :=
  { demoTrain with cols := demoTrain.cols ++ [column name [0, 1, 2, 3, 4, 5, 6, 7, 8, 9]] }

/-- `demoTrain` with `timestamp` in the place of its second column -/
def demoPair : Frame :=
  ⟨demoTrain.index, demoTrain.cols.take 1 ++ [column "timestamp" [0, 1, 2, 3, 4, 5, 6, 7, 8, 9]]⟩

/-- **C113** The table with columns `a`, `b` and a third called `time` is accepted; if the third is called `timestamp`, `fit` raises
`ValueError`. -/
theorem C113_refused : ∃ (E : MEnv Nat) (w : World) (f : String → Frame), E.WF ∧ Reachable E w ∧
    (∀ n, (f n).cols.map (·.name) = ["b", "a", n]) ∧ (∀ n m, (f n).cols.map (·.cells) = (f m).cols.map (·.cells)) ∧
    (Multi.fit E (.frame (f "time")) w).2 = .ok () ∧
    (Multi.fit E (.frame (f "timestamp")) w).2 = .error (.err .valueError) := by
  refine ⟨demoE loss0, demoStart, demoStamped, demoE_wf _, demoStart_reachable _, fun _ => rfl, fun _ _ => rfl, ?_, ?_⟩
  · exact returned_unit (by decide +kernel)
  · exact Multi.raised_eq (by decide +kernel)

/-- The hypotheses of `C113_timestamp` can be met: a `timestamp` and one other column. -/
example : ∃ w', Multi.fit (demoE loss0) (.frame demoPair) demoStart = (w', .ok ()) ∧ (demoPair.cols.map (·.name)).Nodup ∧
    "timestamp" ∈ demoPair.cols.map (·.name) := by
  obtain ⟨w', u, h, -⟩ := returned_ok (x := Multi.fit (demoE loss0) (.frame demoPair)) (w := demoStart) (test := fun _ => true)
    (by decide +kernel)
  exact ⟨w', h, by decide +kernel, by decide +kernel⟩

end Verif
