import Verif.Props.MultiUnread
import Verif.Props.Rename

/-!
# Labels of the rows (C129)

What the labels of the rows of a table (its timestamps, say) decide in `fit` and `predict`: the order of the rows, and the labels of the results.
-/

namespace Verif

open Multi Spec

/-- the table with other row labels -/
def Spec.relabelled (τ : Int → Int) (f : Frame) : Frame := ⟨f.index.map τ, f.cols⟩

/-- the labels of the rows of `f` are distinct, and `τ` keeps their order -/
def Spec.LabelsKept (τ : Int → Int) (f : Frame) : Prop :=
  f.index.Nodup ∧ ∀ a ∈ f.index, ∀ b ∈ f.index, a < b → τ a < τ b

/-- the result with another label -/
def Spec.relabelledItem (τ : Int → Int) (x : Multi.Item) : Multi.Item := { x with index := τ x.index }

/-- the call with other labels in its table -/
def Spec.relabelledCall (τ : Int → Int) : Call → Call
  | .fit (.frame f) => .fit (.frame (relabelled τ f))
  | .predict (.frame f) => .predict (.frame (relabelled τ f))
  | c => c

/-- `τ` suits the table of the call -/
def Spec.CallLabels (τ : Int → Int) : Call → Prop
  | .fit (.frame f) => LabelsKept τ f
  | .predict (.frame f) => LabelsKept τ f
  | _ => True

/-! ### sorting -/

theorem indexOrder_map {E : TableEnv} (hE : E.WF) {τ : Int → Int} {l : List Int} (hn : l.Nodup)
    (hm : ∀ a ∈ l, ∀ b ∈ l, a < b → τ a < τ b) : E.indexOrder (l.map τ) = E.indexOrder l := by
  have hp1 := hE.order_perm l
  have hp2 := hE.order_perm (l.map τ)
  rw [List.length_map] at hp2
  have hs1 := hE.order_sorted l
  have hs2 := hE.order_sorted (l.map τ)
  have r1 : ∀ i ∈ E.indexOrder l, i < l.length := fun i hi => List.mem_range.1 (hp1.mem_iff.1 hi)
  have r2 : ∀ i ∈ E.indexOrder (l.map τ), i < l.length := fun i hi => List.mem_range.1 (hp2.mem_iff.1 hi)
  rw [List.pairwise_map] at hs1 hs2
  have hs2' : (E.indexOrder (l.map τ)).Pairwise fun i j => l.getD i 0 ≤ l.getD j 0 := by
    refine hs2.imp_of_mem fun {i j} hi hj h => ?_
    have hi' := r2 i hi
    have hj' := r2 j hj
    rw [List.getD_eq_getElem _ _ (by simpa using hi'), List.getD_eq_getElem _ _ (by simpa using hj'), List.getElem_map,
      List.getElem_map] at h
    rw [List.getD_eq_getElem _ _ hi', List.getD_eq_getElem _ _ hj']
    by_contra hlt
    exact absurd (hm _ (List.getElem_mem hj') _ (List.getElem_mem hi') (not_le.1 hlt)) (not_lt.2 h)
  refine List.Perm.eq_of_pairwise ?_ hs2' hs1 (hp2.trans hp1.symm)
  intro i j hi hj h1 h2
  have hi' := r2 i hi
  have hj' := r1 j hj
  have he := le_antisymm h1 h2
  rw [List.getD_eq_getElem _ _ hi', List.getD_eq_getElem _ _ hj'] at he
  exact (List.Nodup.getElem_inj_iff hn).1 he

theorem relabelled_process {E : TableEnv} (hE : E.WF) (p : Processor) {τ : Int → Int} {f : Frame} (h : LabelsKept τ f) :
    p.process E (.frame (relabelled τ f)) = (p.process E (.frame f)).map fun t => { t with index := t.index.map τ } := by
  have ho := indexOrder_map hE h.1 h.2
  have hlt : ∀ i ∈ E.indexOrder f.index, i < f.index.length := fun i hi => List.mem_range.1 ((hE.order_perm f.index).mem_iff.1 hi)
  have hi : pick (f.index.map τ) 0 (E.indexOrder f.index) = (pick f.index 0 (E.indexOrder f.index)).map τ := by
    simp only [pick, List.map_map]
    apply List.map_congr_left
    intro i hi
    have := hlt i hi
    rw [List.getD_eq_getElem _ _ (by simpa using this), List.getElem_map, Function.comp, List.getD_eq_getElem _ _ this]
  have hs : sortIndex E (relabelled τ f) = relabelled τ (sortIndex E f) := by
    simp only [sortIndex, relabelled, ho, hi]
  simp only [Processor.process, hs]
  generalize sortIndex E f = g
  have h1 : selectCols (relabelled τ g) (sortedNames (relabelled τ g)) = relabelled τ (selectCols g (sortedNames g)) := rfl
  rw [h1]
  generalize selectCols g (sortedNames g) = g
  have h2 : (relabelled τ g).convertible = g.convertible := rfl
  rw [h2]
  cases g.convertible with
  | false => rfl
  | true =>
    simp only [if_true, relabelled]
    cases g.cols.mapM p.column <;> rfl

theorem relabelled_ok (τ : Int → Int) (f : Frame) : (relabelled τ f).ok = f.ok := by
  simp [Frame.ok, relabelled]

theorem relabelled_processData {TS} {E : MEnv TS} (hE : E.toTableEnv.WF) {τ : Int → Int} {f : Frame} (h : LabelsKept τ f) (w : World) :
    processData E (.frame (relabelled τ f)) w = ((processData E (.frame f) w).1, (processData E (.frame f) w).2.map fun r =>
      (relabelled τ r.1, { r.2.1 with index := r.2.1.index.map τ }, r.2.2)) := by
  simp only [processData, Bind.bind, MM.bind, MM.get, MM.of, MM.modifyParams, relabelled_ok]
  cases windowSizes E (w.params "sliding_window") with
  | error e => rfl
  | ok sizes =>
    simp only []
    cases lift (Processor.init E.toTableEnv ((w.params "fill_na_method").getD (.str "Linear"))
      ((w.params "fill_na_value").getD (.float (.fin 0)))) with
    | error e => rfl
    | ok proc =>
      cases f.ok with
      | false => rfl
      | true =>
        simp only [if_true, relabelled_process hE _ h]
        cases proc.process E.toTableEnv (.frame f) with
        | error e => rfl
        | ok t =>
          simp only [Except.map, MM.bind, MM.of, MM.modifyParams, MM.get]
          generalize Config.ofParams _ _ _ _ = C
          cases C <;> rfl

/-! ### predict -/

theorem relabelled_packItem (E : NumEnv) (τ : Int → Int) (vars : List String) (i : Int) (a : Bool) (s t : ℚ)
    (contrib : List PyFloat) (attn : List (List ℚ)) :
    packItem E vars (τ i) a s t contrib attn = (packItem E vars i a s t contrib attn).map (relabelledItem τ) := by
  simp only [packItem]
  cases List.mapM (packVar E vars contrib attn) (E.argsortDesc contrib) <;> rfl

theorem mapM_congr_mem {α β ε : Type} {g k : α → Except ε β} {l : List α} (h : ∀ a ∈ l, g a = k a) : l.mapM g = l.mapM k := by
  induction l with
  | nil => rfl
  | cons a t ih => simp only [List.mapM_cons, h a (by simp), ih fun b hb => h b (by simp [hb])]

theorem relabelled_packResponse (E : NumEnv) (τ : Int → Int) (index : List Int) (vars : List String) (anomalies : List Bool)
    (scores severity : List ℚ) (contrib : List (List PyFloat)) (attn : List (List (List ℚ))) :
    packResponse E (index.map τ) vars anomalies scores severity contrib attn =
      (packResponse E index vars anomalies scores severity contrib attn).map (List.map (relabelledItem τ)) := by
  simp only [packResponse, List.length_map]
  split
  · rfl
  · rename_i hl
    rw [← mapM_map_except]
    apply mapM_congr_mem
    intro k hk
    have hk' : index.length - anomalies.length + k < index.length := by
      have := List.mem_range.1 hk
      omega
    rw [List.getD_eq_getElem _ _ (by simpa using hk'), List.getElem_map, relabelled_packItem, List.getD_eq_getElem _ _ hk']

theorem relabelled_detectWith {TS} (E : MEnv TS) (d : Det) (τ : Int → Int) (f : Frame) (t : Table) :
    detectWith E d (relabelled τ f) { t with index := t.index.map τ } = (detectWith E d f t).map (List.map (relabelledItem τ)) := by
  have hr : Table.rows { t with index := t.index.map τ } = t.rows := by simp [Table.rows]
  simp only [detectWith, hr]
  cases d.config with
  | none => rfl
  | some c =>
    simp only []
    split
    · rfl
    · cases d.threshold with
      | none => rfl
      | some th =>
        simp only []
        cases inference E d t.rows with
        | error e => rfl
        | ok o =>
          obtain ⟨contrib, scores, attn⟩ := o
          simp only [Bind.bind, Except.bind]
          cases contrib with
          | none => rfl
          | some contrib =>
            cases scores with
            | none => rfl
            | some scores =>
              cases attn with
              | none => rfl
              | some attn =>
                simp only []
                cases lift (dynThresholds c.thresholdWindow scores) with
                | error e => rfl
                | ok ths =>
                  simp only [relabelled, relabelled_packResponse]
                  generalize packResponse E.toNumEnv f.index t.names _ _ _ _ _ = r
                  cases r <;> rfl

theorem relabelled_predict {TS} {E : MEnv TS} (hE : E.toTableEnv.WF) {τ : Int → Int} {f : Frame} (h : LabelsKept τ f) (w : World) :
    Multi.predict E (.frame (relabelled τ f)) w =
      ((Multi.predict E (.frame f) w).1, (Multi.predict E (.frame f) w).2.map (List.map (relabelledItem τ))) := by
  simp only [Multi.predict, Bind.bind, MM.bind, MM.get, MM.of, relabelled_processData hE h]
  cases processData E (.frame f) w with
  | mk w' r =>
    cases r with
    | error e => rfl
    | ok r =>
      obtain ⟨g, t, c⟩ := r
      simp only [Except.map]
      cases ensureModel w' with
      | mk w'' r =>
        cases r with
        | error e => rfl
        | ok _ => exact congrArg _ (relabelled_detectWith E w''.det τ g t)

/-! ### fit -/

theorem relabelled_fit {TS} {E : MEnv TS} (hE : E.toTableEnv.WF) {τ : Int → Int} {f : Frame} (h : LabelsKept τ f) (w : World) :
    Multi.fit E (.frame (relabelled τ f)) w = Multi.fit E (.frame f) w := by
  simp only [fit_tail, Bind.bind, MM.bind, relabelled_processData hE h]
  cases processData E (.frame f) w with
  | mk w1 r =>
    cases r with
    | error e => rfl
    | ok r =>
      obtain ⟨g, t, c⟩ := r
      have hr : Table.rows { t with index := t.index.map τ } = t.rows := by simp [Table.rows]
      have ht : fitTail E (relabelled τ g) t.rows c = fitTail E g t.rows c := rfl
      simp only [Except.map, hr, ht]

/-! ### programs -/

theorem doCall_relabelled {TS} {E : MEnv TS} (hE : E.toTableEnv.WF) {τ : Int → Int} {c : Call} (h : CallLabels τ c) (w : World) :
    doCall E w (relabelledCall τ c) = ((doCall E w c).1, (doCall E w c).2.map (List.map (relabelledItem τ))) := by
  cases c with
  | fit d =>
    cases d with
    | frame f =>
      simp only [relabelledCall, doCall, relabelled_fit hE h]
      cases (Multi.fit E (.frame f) w).2 <;> rfl
    | other =>
      simp only [relabelledCall, doCall]
      cases (Multi.fit E .other w).2 <;> rfl
  | predict d =>
    cases d with
    | frame f => exact relabelled_predict hE h w
    | other => rfl
  | load s =>
    simp only [relabelledCall, doCall]
    cases (loadCheckpoint s w).2 <;> rfl
  | _ => rfl

/-- **C129** The labels of the rows count by their order only. Take any program of calls on detectors, and give the tables of its calls other labels, each
table by a map of its own that keeps the order of its labels, which have to be distinct: the outcomes are the same, call by call and error by error, with the
new labels in the results. In particular uneven distances between timestamps are not noticed. -/
theorem C129_labels {TS} {E : MEnv TS} (hE : E.toTableEnv.WF) (ps : List ((Int → Int) × Call)) (h : ∀ p ∈ ps, CallLabels p.1 p.2) (w : World) :
    outcomes E w (ps.map fun p => relabelledCall p.1 p.2) =
      List.zipWith (fun p r => r.map (List.map (relabelledItem p.1))) ps (outcomes E w (ps.map (·.2))) := by
  induction ps generalizing w with
  | nil => rfl
  | cons p ps ih =>
    simp only [List.map_cons, outcomes, List.zipWith_cons_cons, doCall_relabelled hE (h p (by simp)) w]
    rw [ih fun q hq => h q (by simp [hq])]

/-- **C129** (state). Nothing that is kept between the calls depends on the labels: neither the detector, nor the files, nor the params dict. -/
theorem C129_state {TS} {E : MEnv TS} (hE : E.toTableEnv.WF) {τ : Int → Int} {c : Call} (h : CallLabels τ c) (w : World) :
    (doCall E w (relabelledCall τ c)).1 = (doCall E w c).1 := by rw [doCall_relabelled hE h]

/-! ### a case -/

/-- labels at uneven distances -/
def demoTau (i : Int) : Int := if i ≤ 24 then i * i * i else 1000000 * i

def demoLabelled : List ((Int → Int) × Call) :=
  [(fun i => 2 * i, .fit (.frame demoTrain)), (id, .params demoParams), (demoTau, .predict (.frame demoTest))]

def labelsOf (x : Except Stop (List Multi.Item)) : List (Int × Bool) :=
  match x with
  | .ok items => items.map fun i => (i.index, i.isAnomaly)
  | .error _ => []

/-- Training and predicting: the distances between the labels grow by and by in the second version of the table. The results carry the new labels, the
anomaly is the same row. -/
example : (demoE loss0).toTableEnv.WF ∧ (∀ p ∈ demoLabelled, CallLabels p.1 p.2) ∧
    (outcomes (demoE loss0) demoStart (demoLabelled.map (·.2))).map labelsOf = [[], [], [(23, false), (24, true), (25, false), (26, false)]] ∧
    (outcomes (demoE loss0) demoStart (demoLabelled.map fun p => relabelledCall p.1 p.2)).map labelsOf =
      [[], [], [(12167, false), (13824, true), (25000000, false), (26000000, false)]] := by
  refine ⟨(demoE_wf _).table, ?_, by decide +kernel, by decide +kernel⟩
  intro p hp
  simp only [demoLabelled, List.mem_cons, List.not_mem_nil, or_false] at hp
  rcases hp with rfl | rfl | rfl
  · exact ⟨by decide +kernel, by decide +kernel⟩
  · trivial
  · exact ⟨by decide +kernel, by decide +kernel⟩

end Verif
