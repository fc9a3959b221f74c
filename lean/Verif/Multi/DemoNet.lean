import Verif.Multi.Run
import Verif.Multi.Demo

/-!
# A concrete trained detector

A small network, a table and a params dict on which `fit` and `predict` run. The examples beside the multivariate theorems use them.
-/

namespace Verif.Multi

def constLinear (rows : List (List ℚ)) (bias : ℚ) : Linear := ⟨rows, rows.map fun _ => bias⟩

/-- a network that forecasts the constant `bias` for every variable and has key weight `key` -/
def constNet (key bias : ℚ) (c : Config) : Net where
  featKey := List.replicate c.gatWindow key
  featQuery := List.replicate c.gatWindow 1
  timeKey := List.replicate c.dataDim 0
  timeQuery := List.replicate c.dataDim 0
  gru := ⟨⟨[], []⟩, ⟨[], []⟩, ⟨[], []⟩, ⟨[], []⟩, ⟨[], []⟩, ⟨[], []⟩⟩
  fcNorm := ⟨[]⟩
  fc1 := ⟨[], []⟩
  fc2 := ⟨[], []⟩
  fc3 := ⟨List.replicate c.dataDim [], List.replicate c.dataDim bias⟩
  vae := ⟨⟨[], []⟩, ⟨[]⟩, ⟨[], []⟩, ⟨[]⟩, ⟨[], []⟩, ⟨[]⟩, ⟨[], []⟩, ⟨[]⟩, ⟨[], []⟩, ⟨[], []⟩, ⟨[], []⟩, []⟩

/-- after `s` training steps the network forecasts `s/10` -/
def demoE (loss : Option Net → List Sample → PyFloat) : MEnv Nat :=
  demoM (fun c s => some (constNet 1 (s / 10) c)) loss

theorem demoE_wf (loss : Option Net → List Sample → PyFloat) : (demoE loss).WF where
  table := demoTable_wf
  num := demoNum_wf
  weights_shape := by
    intro c ts N _ h
    cases h
    simp [constNet]
  shuffle_perm ts n := List.Perm.refl _
  shuffle_weights c ts n := rfl

/-- sliding window 4 (two rows of input, threshold window 2), a network of the smallest sizes, one epoch -/
def demoParams : Params := fun k =>
  if k = "sliding_window" then some (.int 4) else if k = "cnn_kernel_size" then some (.int 1)
  else if k = "gat_window_size" then some (.int 1) else if k = "hidden_size" then some (.int 1)
  else if k = "batch_size" then some (.int 2) else if k = "interval" then some (.int 1)
  else if k = "epochs" then some (.int 1) else none

/-- the world before the first call -/
def demoStart : World := ⟨{}, fun _ => .missing, demoParams⟩

def column (name : String) (l : List ℚ) : Column := ⟨name, l.map .num⟩

/-- ten rows, two variables -/
def demoTrain : Frame :=
  ⟨[0, 1, 2, 3, 4, 5, 6, 7, 8, 9], [column "b" [5, 6, 7, 8, 9, 8, 7, 6, 5, 6], column "a" [1, 2, 1, 3, 1, 2, 1, 2, 1, 2]]⟩

/-- seven rows with a jump of `a`, labels ascending -/
def demoTest : Frame :=
  ⟨[20, 21, 22, 23, 24, 25, 26], [column "b" [5, 6, 5, 6, 5, 6, 5], column "a" [1, 2, 1, 2, 9, 2, 1]]⟩

def loss0 : Option Net → List Sample → PyFloat := fun _ _ => .fin 1

/-- the world after training, with a fresh params dict -/
def demoTrained : World := { (fit (demoE loss0) (.frame demoTrain) demoStart).1 with params := demoParams }

theorem demoStart_reachable (loss : Option Net → List Sample → PyFloat) : Reachable (demoE loss) demoStart :=
  Reachable.start _ _ (fun _ _ h => by cases h)

theorem demoTrained_reachable : Reachable (demoE loss0) demoTrained :=
  Reachable.params _ (Reachable.fit _ (demoStart_reachable _))

/-- seven rows in which the variable with the larger normalised value alternates -/
def demoShift : Frame :=
  ⟨[20, 21, 22, 23, 24, 25, 26], [column "b" [5, 6, 9, 5, 5, 9, 6], column "a" [1, 2, 1, 1, 1, 1, 2]]⟩

/-- three rows: too few for a prediction -/
def demoShort : Frame := ⟨[20, 21, 22], [column "b" [5, 6, 5], column "a" [1, 2, 1]]⟩

/-- a new detector that has loaded the checkpoint `fit` wrote -/
def demoReloaded : World :=
  (loadCheckpoint demoTrained.det.modelPath { demoTrained with det := {} }).1

theorem demoReloaded_reachable : Reachable (demoE loss0) demoReloaded :=
  Reachable.load _ (Reachable.new demoTrained_reachable)

/-- the same table with its rows in descending label order -/
def demoReversed : Frame := ⟨demoTest.index.reverse, demoTest.cols.map fun c => ⟨c.name, c.cells.reverse⟩⟩

/-- `predict` returned and the results pass a test -/
def returned {α : Type} (r : Except Stop α) (test : α → Bool) : Bool :=
  match r with
  | .ok a => test a
  | .error _ => false

theorem returned_ok {α : Type} {x : MM α} {w : World} {test : α → Bool} (h : returned (x w).2 test = true) :
    ∃ w' a, x w = (w', .ok a) ∧ test a = true := by
  unfold returned at h
  rcases hx : x w with ⟨w', r⟩
  rw [hx] at h
  cases r with
  | ok a => exact ⟨w', a, rfl, h⟩
  | error e => cases h

/-- the call raised this exception -/
def raised {α : Type} (r : Except Stop α) (e : PyErr) : Bool :=
  match r with
  | .error (.err e') => decide (e' = e)
  | _ => false

theorem raised_eq {α : Type} {r : Except Stop α} {e : PyErr} (h : raised r e = true) : r = .error (.err e) := by
  unfold raised at h
  split at h
  · rw [of_decide_eq_true h]
  · cases h

theorem returned_unit {r : Except Stop Unit} (h : returned r (fun _ => true) = true) : r = .ok () := by
  unfold returned at h
  split at h
  · rfl
  · cases h

theorem accepted_demo {E : MEnv Nat} {f : Frame} {w : World} (h : returned (processData E (.frame f) w).2 (fun _ => true) = true) :
    ∃ t c, Spec.Accepted E w.params f t c := by
  obtain ⟨w', ⟨f', t, c⟩, hr, -⟩ := returned_ok h
  exact ⟨t, c, accepted_of hr⟩

end Verif.Multi
