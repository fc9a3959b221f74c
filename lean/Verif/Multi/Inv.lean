import Verif.Uni.Double
import Verif.Multi.Infer

/-!
# What holds of every detector

Facts about the detector object and the checkpoint files that every call preserves, also a failing one, and the worlds a program
using the detector can reach.
-/

namespace Verif.Multi

/-- the training states that a new network for this configuration can get into -/
inductive MEnv.Trains {TS : Type} (E : MEnv TS) (c : Config) : TS → Prop where
  | init : E.Trains c (E.initState c)
  | shuffle {ts} (n : Nat) : E.Trains c ts → E.Trains c (E.shuffle ts n).2
  | step {ts} (b : List Sample) : E.Trains c ts → E.Trains c (E.step c ts b).1

/-- laws of the libraries -/
structure MEnv.WF {TS : Type} (E : MEnv TS) : Prop where
  table : E.toTableEnv.WF
  num : E.toNumEnv.WF
  /-- the last layer of a network in training has one output per variable -/
  weights_shape : ∀ c ts N, E.Trains c ts → E.weights c ts = some N →
    N.fc3.weight.length = c.dataDim ∧ N.fc3.bias.length = c.dataDim
  /-- the shuffling loader visits every sample once -/
  shuffle_perm : ∀ ts n, (E.shuffle ts n).1.Perm (List.range n)
  /-- drawing the order changes the random generator, not the weights -/
  shuffle_weights : ∀ c ts n, E.weights c (E.shuffle ts n).2 = E.weights c ts

structure Config.Good (c : Config) : Prop where
  dim : 0 < c.dataDim
  kernel : 0 < c.kernel
  gat : 0 < c.gatWindow
  batch : 0 < c.batchSize
  interval : 0 < c.interval
  horizon : 0 < c.horizon
  tw : 0 < c.inputSize → 0 < c.thresholdWindow
  tw_le : c.thresholdWindow ≤ 200
  train : 0 ≤ c.trainRatio
  val : 0 ≤ c.valRatio
  level : 0 ≤ c.level
  base : ∀ b, c.base = some b → b.1.length = c.dataDim ∧ b.2.length = c.dataDim

def NetGood (m : Config) (net : Option Net) : Prop :=
  ∀ N, net = some N → N.fc3.weight.length = m.dataDim ∧ N.fc3.bias.length = m.dataDim

def PctGood (p : Option (List ℚ)) : Prop := ∀ l, p = some l → l ≠ [] ∧ ∀ x ∈ l, 0 < x ∧ x ≤ 1

structure Ckpt.Good (k : Ckpt) : Prop where
  config : k.config.Good
  net : NetGood k.config k.net
  pct : PctGood k.pct

structure Det.Good (d : Det) : Prop where
  config : ∀ c, d.config = some c → c.Good
  model : ∀ m, d.model = some m → m.config.Good ∧ NetGood m.config m.net
  pct : PctGood d.pct
  ready : ∀ m, d.model = some m → ∃ c, d.config = some c

structure World.Good (w : World) : Prop where
  det : w.det.Good
  disk : ∀ p k, w.disk p = .ckpt k → k.Good

namespace MM

/-- `x` preserves `I`, whatever its outcome, and a returned value satisfies `Q` -/
def Holds {α} (I : World → Prop) (x : MM α) (Q : α → Prop) : Prop :=
  ∀ w, I w → I (x w).1 ∧ ∀ a, (x w).2 = .ok a → Q a

theorem Holds.bind {α β} {I : World → Prop} {x : MM α} {f : α → MM β} {Q : α → Prop} {R : β → Prop}
    (hx : Holds I x Q) (hf : ∀ a, Q a → Holds I (f a) R) : Holds I (x >>= f) R := by
  intro w hw
  show I (MM.bind x f w).1 ∧ ∀ a, (MM.bind x f w).2 = .ok a → R a
  have h := hx w hw
  unfold MM.bind
  rcases hr : x w with ⟨w1, r⟩
  rw [hr] at h
  cases r with
  | error e => exact ⟨h.1, fun a ha => by cases ha⟩
  | ok a => exact hf a (h.2 a rfl) w1 h.1

theorem Holds.pure {α} {I : World → Prop} {a : α} : Holds I (Pure.pure a) (· = a) :=
  fun w hw => ⟨hw, fun b hb => by cases hb; rfl⟩

theorem Holds.get {I : World → Prop} : Holds I MM.get I := fun w hw => ⟨hw, fun b hb => by cases hb; exact hw⟩

theorem Holds.of {α} {I : World → Prop} {x : Except Stop α} : Holds I (MM.of x) (x = .ok ·) :=
  fun _ hw => ⟨hw, fun _ hb => hb⟩

theorem Holds.throw {α} {I : World → Prop} {e : PyErr} {Q : α → Prop} : Holds I (MM.throw e) Q :=
  fun w hw => ⟨hw, fun b hb => by cases hb⟩

theorem Holds.modifyDet {I : World → Prop} {f : Det → Det} (h : ∀ w, I w → I { w with det := f w.det }) :
    Holds I (MM.modifyDet f) fun _ => True := fun w hw => ⟨h w hw, fun _ _ => trivial⟩

theorem Holds.modifyParams {I : World → Prop} {f : Params → Params} (h : ∀ w, I w → I { w with params := f w.params }) :
    Holds I (MM.modifyParams f) fun _ => True := fun w hw => ⟨h w hw, fun _ _ => trivial⟩

theorem Holds.imp {α} {I : World → Prop} {x : MM α} {Q R : α → Prop} (h : Holds I x Q) (hi : ∀ a, Q a → R a) :
    Holds I x R := fun w hw => ⟨(h w hw).1, fun a ha => hi a ((h w hw).2 a ha)⟩

/-- a stronger invariant, established by an assignment -/
theorem Holds.enter {β} {I J : World → Prop} {f : Det → Det} {k : Unit → MM β} {R : β → Prop}
    (hf : ∀ w, I w → J { w with det := f w.det }) (hJ : ∀ w, J w → I w) (hk : Holds J (k ()) R) :
    Holds I (MM.modifyDet f >>= k) R := by
  intro w hw
  have := hk _ (hf w hw)
  exact ⟨hJ _ this.1, this.2⟩

theorem Holds.and {α} {I J : World → Prop} {x : MM α} {Q R : α → Prop} (h : Holds I x Q) (h' : Holds J x R) :
    Holds (fun w => I w ∧ J w) x Q :=
  fun w hw => ⟨⟨(h w hw.1).1, (h' w hw.2).1⟩, (h w hw.1).2⟩

end MM

open MM

/-- the detector has a configuration -/
def Ready (w : World) : Prop := ∃ c, w.det.config = some c

/-! ### configurations -/

theorem readNat_ok {p : Params} {key : String} {dflt lo n : Nat} (hd : lo ≤ dflt) (h : readNat p key dflt lo = .ok n) :
    lo ≤ n := by
  unfold readNat at h
  split at h
  · cases h; exact hd
  · split at h
    · split at h
      · cases h; omega
      · cases h
    · cases h

theorem readRat_ok {p : Params} {key : String} {dflt q : ℚ} (hd : 0 ≤ dflt) (h : readRat p key dflt = .ok q) : 0 ≤ q := by
  unfold readRat at h
  split at h
  · cases h; exact hd
  · split at h
    · split at h
      · cases h; assumption
      · cases h
    · cases h

theorem ofParams_good {p : Params} {dim input tw : Nat} {c : Config} (hdim : 0 < dim) (htw : (0 < input → 0 < tw) ∧ tw ≤ 200)
    (h : Config.ofParams p dim input tw = .ok c) :
    c.Good ∧ c.dataDim = dim ∧ c.inputSize = input ∧ c.thresholdWindow = tw ∧ c.base = none := by
  unfold Config.ofParams at h
  obtain ⟨kernel, h1, h⟩ := ebind_ok.1 h
  obtain ⟨gat, h2, h⟩ := ebind_ok.1 h
  obtain ⟨hidden, h3, h⟩ := ebind_ok.1 h
  obtain ⟨epochs, h4, h⟩ := ebind_ok.1 h
  obtain ⟨batch, h5, h⟩ := ebind_ok.1 h
  obtain ⟨interval, h6, h⟩ := ebind_ok.1 h
  obtain ⟨horizon, h7, h⟩ := ebind_ok.1 h
  obtain ⟨save, h8, h⟩ := ebind_ok.1 h
  obtain ⟨tr, h9, h⟩ := ebind_ok.1 h
  obtain ⟨vr, h10, h⟩ := ebind_ok.1 h
  obtain ⟨level, h11, h⟩ := ebind_ok.1 h
  rw [epure_ok] at h
  subst h
  refine ⟨⟨hdim, ?_, ?_, ?_, ?_, ?_, htw.1, htw.2, ?_, ?_, ?_, ?_⟩, rfl, rfl, rfl, rfl⟩
  · exact readNat_ok (by omega) h1
  · exact readNat_ok (by omega) h2
  · exact readNat_ok (by omega) h5
  · exact readNat_ok (by omega) h6
  · exact readNat_ok (by omega) h7
  · exact readRat_ok (roundDouble_nonneg _) h9
  · exact readRat_ok (roundDouble_nonneg _) h10
  · exact readRat_ok (roundDouble_nonneg _) h11
  · intro b hb; cases hb

theorem ofParams_ratios {p : Params} {dim input tw : Nat} {c : Config} (h : Config.ofParams p dim input tw = .ok c) :
    readRat p "train_ratio" (roundDouble (8 / 10)) = .ok c.trainRatio ∧ readRat p "val_ratio" (roundDouble (1 / 10)) = .ok c.valRatio ∧
      readRat p "level" (roundDouble (8 / 10)) = .ok c.level := by
  unfold Config.ofParams at h
  obtain ⟨kernel, h1, h⟩ := ebind_ok.1 h
  obtain ⟨gat, h2, h⟩ := ebind_ok.1 h
  obtain ⟨hidden, h3, h⟩ := ebind_ok.1 h
  obtain ⟨epochs, h4, h⟩ := ebind_ok.1 h
  obtain ⟨batch, h5, h⟩ := ebind_ok.1 h
  obtain ⟨interval, h6, h⟩ := ebind_ok.1 h
  obtain ⟨horizon, h7, h⟩ := ebind_ok.1 h
  obtain ⟨save, h8, h⟩ := ebind_ok.1 h
  obtain ⟨tr, h9, h⟩ := ebind_ok.1 h
  obtain ⟨vr, h10, h⟩ := ebind_ok.1 h
  obtain ⟨level, h11, h⟩ := ebind_ok.1 h
  rw [epure_ok] at h
  subst h
  exact ⟨h9, h10, h11⟩

theorem windowSizes_pos {TS} {E : MEnv TS} {v : Option PyVal} {s : Nat × Nat} (h : windowSizes E v = .ok s) :
    (0 < s.1 → 0 < s.2) ∧ s.2 ≤ 200 := by
  unfold windowSizes at h
  split at h
  · split at h
    · cases h
    · split at h
      · cases h
      · cases h
        simp only
        omega
  · cases h; simp

/-! ### weights -/

theorem pctWeight_good {w : Nat} {f : Frame} {l : List ℚ} (h : pctWeight w f = .ok l) : PctGood (some l) := by
  intro l' hl'
  cases hl'
  unfold pctWeight at h
  dsimp only at h
  split at h
  · cases h
  · rename_i cols hcols
    split at h
    · cases h
    · rename_i hne
      cases h
      have hpos : (0 : ℚ) < cols.length := by
        have : 0 < cols.length := by omega
        exact_mod_cast this
      constructor
      · intro e
        apply hne
        simpa using congrArg List.length e
      · intro x hx
        obtain ⟨v, hv, rfl⟩ := List.mem_map.1 hx
        split
        · rename_i hvol
          have h1 : 0 < (cols.map (volatility w)).countP volatile := List.countP_pos_iff.2 ⟨v, hv, hvol⟩
          have h2 : (cols.map (volatility w)).countP volatile ≤ cols.length := by
            simpa using List.countP_le_length (p := volatile) (l := cols.map (volatility w))
          constructor
          · apply div_pos _ hpos
            exact_mod_cast h1
          · rw [div_le_one hpos]
            exact_mod_cast h2
        · exact ⟨by norm_num, le_refl _⟩

/-! ### every call preserves the facts -/

theorem Good.params {w : World} (h : w.Good) (p : Params) : ({ w with params := p } : World).Good := ⟨h.det, h.disk⟩

theorem processed_dims {E : TableEnv} {P : Processor} {f : Frame} {t : Table} (hf : f.ok = true)
    (h : P.process E (.frame f) = .ok t) : 0 < t.names.length := by
  unfold Processor.process at h
  dsimp only at h
  split at h
  · obtain ⟨cols, h1, h2⟩ := ebind_ok.1 h
    rw [epure_ok] at h2
    subst h2
    simp only [Frame.ok, Bool.and_eq_true, Bool.not_eq_true', List.isEmpty_eq_false_iff] at hf
    obtain ⟨k, hk⟩ := List.exists_mem_of_ne_nil _ hf.1.2
    rw [List.length_map, List.length_pos_iff]
    apply List.ne_nil_of_mem (a := (⟨k.name, pick k.cells .nan (E.indexOrder f.index)⟩ : Column))
    unfold selectCols
    simp only [List.mem_flatMap, List.mem_filter, decide_eq_true_eq]
    have hmem : (⟨k.name, pick k.cells .nan (E.indexOrder f.index)⟩ : Column) ∈ (sortIndex E f).cols :=
      List.mem_map.2 ⟨k, hk, rfl⟩
    refine ⟨k.name, ?_, hmem, rfl⟩
    unfold sortedNames
    rw [(List.perm_insertionSort _ _).mem_iff]
    exact List.mem_map.2 ⟨_, hmem, rfl⟩
  · cases h

theorem processData_holds {TS} (E : MEnv TS) (data : MData) :
    Holds World.Good (processData E data) fun r => r.2.2.Good ∧ r.2.2.base = none ∧ r.2.2.dataDim = r.2.1.names.length := by
  unfold processData
  split
  · exact Holds.throw
  · rename_i f
    refine Holds.get.bind fun w _ => ?_
    refine Holds.of.bind fun sizes hs => ?_
    refine (Holds.modifyParams fun w h => Good.params h _).bind fun _ _ => ?_
    refine (Holds.modifyParams fun w h => Good.params h _).bind fun _ _ => ?_
    refine Holds.of.bind fun proc _ => ?_
    split
    · rename_i hok
      refine Holds.of.bind fun t ht => ?_
      refine (Holds.modifyParams fun w h => Good.params h _).bind fun _ _ => ?_
      refine Holds.get.bind fun w _ => ?_
      refine Holds.of.bind fun c hc => ?_
      refine Holds.pure.imp fun r hr => ?_
      subst hr
      have := ofParams_good (processed_dims hok ht) (windowSizes_pos hs) hc
      exact ⟨this.1, this.2.2.2.2, this.2.1⟩
    · intro w hw
      exact ⟨hw, fun a ha => by cases ha⟩

theorem loadCheckpoint_holds (p : Option String) : Holds World.Good (loadCheckpoint p) fun _ => True := by
  unfold loadCheckpoint
  refine Holds.get.bind fun w0 hw0 => ?_
  split
  · exact Holds.throw
  · split
    · exact Holds.throw
    · exact Holds.throw
    · rename_i p k hk
      have hg := hw0.disk _ _ hk
      refine Holds.modifyDet fun w hw => ⟨⟨?_, ?_, ?_, ?_⟩, hw.disk⟩
      · intro c hc; cases hc; exact hg.config
      · intro m hm; cases hm; exact ⟨hg.config, hg.net⟩
      · exact hg.pct
      · intro m _; exact ⟨_, rfl⟩

theorem saveCheckpoint_holds {c : Config} {net : Option Net} (hc : c.Good) (hn : NetGood c net) :
    Holds World.Good (saveCheckpoint c net) fun _ => True := by
  unfold saveCheckpoint
  refine Holds.get.bind fun w0 hw0 => ?_
  intro w hw
  refine ⟨⟨hw.det, ?_⟩, fun _ _ => trivial⟩
  intro p k hk
  simp only [MM.writeFile] at hk
  split at hk
  · cases hk
    exact ⟨hc, hn, hw0.det.pct⟩
  · exact hw.disk _ _ hk

theorem save_ready {c : Config} {net : Option Net} : Holds Ready (saveCheckpoint c net) fun _ => True := by
  unfold saveCheckpoint
  refine Holds.get.bind fun w0 hw0 => ?_
  intro w hw
  exact ⟨hw, fun _ _ => trivial⟩

theorem load_ready (p : Option String) : Holds Ready (loadCheckpoint p) fun _ => True := by
  unfold loadCheckpoint
  refine Holds.get.bind fun w0 hw0 => ?_
  split
  · exact Holds.throw
  · split
    · exact Holds.throw
    · exact Holds.throw
    · exact Holds.modifyDet fun w hw => ⟨_, rfl⟩

theorem trainFold_trains {TS} {E : MEnv TS} {c : Config} (bs : List (List Sample)) {s : TS × Meter} (h : E.Trains c s.1) :
    E.Trains c (bs.foldl (fun (s : TS × Meter) b => let (t, l) := E.step c s.1 b; (t, s.2.update l b.length)) s).1 := by
  induction bs generalizing s with
  | nil => exact h
  | cons b t ih => exact ih (.step b h)

theorem trainEpoch_trains {TS} {E : MEnv TS} {c : Config} (train : List Sample) {ts : TS} (h : E.Trains c ts) :
    E.Trains c (trainEpoch E c train ts).1 := trainFold_trains _ (.shuffle _ h)

theorem epoch_holds {TS} {E : MEnv TS} (hE : E.WF) {c : Config} (hc : c.Good) (train val : List Sample) {s : TS × PyFloat}
    (hs : E.Trains c s.1) :
    Holds (fun w => World.Good w ∧ Ready w) (epoch E c train val s) fun s' => E.Trains c s'.1 := by
  have ht := trainEpoch_trains train hs
  unfold epoch
  split
  · exact Holds.throw
  · split
    · exact Holds.throw
    · dsimp only
      split
      · have hn : NetGood c (E.weights c (trainEpoch E c train s.1).1) := fun N hN => hE.weights_shape _ _ _ ht hN
        refine (Holds.modifyDet (fun w hw => ⟨⟨⟨hw.1.det.config, fun m hm => ?_, hw.1.det.pct, fun _ _ => hw.2⟩,
          hw.1.disk⟩, hw.2⟩)).bind fun _ _ => ?_
        · exact ((saveCheckpoint_holds hc hn).and save_ready).bind fun _ _ => Holds.pure.imp fun _ h => h ▸ ht
        · cases hm; exact ⟨hc, hn⟩
      · exact Holds.pure.imp fun _ h => h ▸ ht

theorem epochs_holds {TS} {E : MEnv TS} (hE : E.WF) {c : Config} (hc : c.Good) (train val : List Sample) (n : Nat)
    {s : TS × PyFloat} (hs : E.Trains c s.1) : Holds (fun w => World.Good w ∧ Ready w) (epochs E c train val n s) fun _ => True := by
  induction n generalizing s with
  | zero => exact Holds.pure.imp fun _ _ => trivial
  | succ n ih =>
    unfold epochs
    exact (epoch_holds hE hc train val hs).bind fun s' hs' => ih hs'

theorem colFold_length (f : List ℚ → ℚ) (dim : Nat) (rows : List (List ℚ)) : (colFold f dim rows).length = dim := by
  simp [colFold]

/-- the configuration `fit` trains with -/
theorem Config.Good.withBase {c : Config} (hc : c.Good) (rows : List (List ℚ)) :
    Config.Good { c with base := some (colFold npMax c.dataDim rows, colFold npMin c.dataDim rows) } :=
  ⟨hc.dim, hc.kernel, hc.gat, hc.batch, hc.interval, hc.horizon, hc.tw, hc.tw_le, hc.train, hc.val, hc.level, by
    intro b hb
    cases hb
    exact ⟨colFold_length _ _ _, colFold_length _ _ _⟩⟩

theorem fit_holds {TS} {E : MEnv TS} (hE : E.WF) (data : MData) : Holds World.Good (fit E data) fun _ => True := by
  unfold fit
  refine (processData_holds E data).bind fun r hr => ?_
  obtain ⟨f, t, c0⟩ := r
  obtain ⟨hc, -, -⟩ := hr
  dsimp only at hc ⊢
  refine (Holds.modifyDet fun w hw => ⟨⟨fun c h => by cases h; exact hc, hw.det.model, hw.det.pct, fun _ _ => ⟨_, rfl⟩⟩, hw.disk⟩).bind
    fun _ _ => ?_
  refine Holds.of.bind fun pct hpct => ?_
  refine (Holds.modifyDet fun w hw => ⟨⟨hw.det.config, hw.det.model, pctWeight_good hpct, hw.det.ready⟩, hw.disk⟩).bind fun _ _ => ?_
  split
  · exact Holds.throw
  · have hc' := hc.withBase (split c0 t.rows).1
    refine Holds.enter (J := fun w => World.Good w ∧ Ready w) (fun w hw => ⟨⟨⟨fun c h => by cases h; exact hc', hw.det.model,
      hw.det.pct, fun _ _ => ⟨_, rfl⟩⟩, hw.disk⟩, _, rfl⟩) (fun w hw => hw.1) ?_
    refine Holds.of.bind fun ts _ => ?_
    refine Holds.of.bind fun vs _ => ?_
    split
    · exact Holds.throw
    · refine (epochs_holds hE hc' _ _ _ .init).bind fun _ _ => ?_
      refine ((loadCheckpoint_holds _).and (load_ready _)).bind fun _ _ => ?_
      refine Holds.get.bind fun w _ => ?_
      refine Holds.of.bind fun r _ => ?_
      exact Holds.modifyDet fun w hw =>
        ⟨⟨⟨hw.1.det.config, hw.1.det.model, hw.1.det.pct, hw.1.det.ready⟩, hw.1.disk⟩, hw.2⟩

theorem ensureModel_holds : Holds World.Good ensureModel fun _ => True := by
  intro w hw
  refine ⟨?_, fun _ _ => trivial⟩
  unfold ensureModel
  split
  · exact hw
  · have := (loadCheckpoint_holds w.det.modelPath w hw).1
    split <;> rename_i h <;> rw [h] at this <;> exact this

theorem predict_holds {TS} (E : MEnv TS) (data : MData) : Holds World.Good (predict E data) fun _ => True := by
  unfold predict
  refine (processData_holds E data).bind fun r hr => ?_
  obtain ⟨f, t, c0⟩ := r
  dsimp only
  refine ensureModel_holds.bind fun _ _ => ?_
  refine Holds.get.bind fun w _ => ?_
  exact Holds.of.imp fun _ _ => trivial

/-! ### reachable worlds -/

/-- The worlds of a program that uses one detector object at a time: it starts with a new detector and no checkpoints, and may
call `fit`, `predict` and `load_checkpoint` with any arguments, pass any params dict, create a new detector, assign its model path,
and lose or damage files. -/
inductive Reachable {TS : Type} (E : MEnv TS) : World → Prop where
  | start (disk : String → File) (p : Params) (h : ∀ x k, disk x ≠ .ckpt k) : Reachable E ⟨{}, disk, p⟩
  | params {w} (p : Params) : Reachable E w → Reachable E { w with params := p }
  | new {w} : Reachable E w → Reachable E { w with det := {} }
  | path {w} (s : Option String) : Reachable E w → Reachable E { w with det := { w.det with modelPath := s } }
  | damage {w} (s : String) (f : File) (h : ∀ k, f ≠ .ckpt k) :
      Reachable E w → Reachable E { w with disk := fun x => if x = s then f else w.disk x }
  | fit {w} (data : MData) : Reachable E w → Reachable E (Multi.fit E data w).1
  | predict {w} (data : MData) : Reachable E w → Reachable E (Multi.predict E data w).1
  | load {w} (s : Option String) : Reachable E w → Reachable E (loadCheckpoint s w).1

theorem Reachable.good {TS : Type} {E : MEnv TS} (hE : E.WF) {w : World} (h : Reachable E w) : w.Good := by
  have empty : Det.Good {} :=
    ⟨fun c hc => (by cases hc), fun m hm => (by cases hm), fun l hl => (by cases hl), fun m hm => (by cases hm)⟩
  induction h with
  | start disk p h => exact ⟨empty, fun x k hk => absurd hk (h x k)⟩
  | params p _ ih => exact Good.params ih p
  | new _ ih => exact ⟨empty, ih.disk⟩
  | path s _ ih => exact ⟨⟨ih.det.config, ih.det.model, ih.det.pct, ih.det.ready⟩, ih.disk⟩
  | damage s f h _ ih =>
    refine ⟨ih.det, fun x k hk => ?_⟩
    simp only at hk
    split at hk
    · exact absurd hk (h k)
    · exact ih.disk _ _ hk
  | fit data _ ih => exact (fit_holds hE data _ ih).1
  | predict data _ ih => exact (predict_holds E data _ ih).1
  | load s _ ih => exact (loadCheckpoint_holds s _ ih).1

end Verif.Multi
