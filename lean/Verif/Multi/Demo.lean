import Verif.Multi.Model

/-!
# A concrete environment

Simple library functions that satisfy the assumed laws. The examples beside the multivariate theorems run on it.
-/

namespace Verif.Multi

theorem sortBy_sorted {α β : Type} [LinearOrder β] (key : α → β) (l : List α) :
    ((l.insertionSort fun i j => key i ≤ key j).map key).Pairwise (· ≤ ·) := by
  rw [List.pairwise_map]
  have : Std.Total (fun i j => key i ≤ key j) := ⟨fun a b => le_total _ _⟩
  have : IsTrans α (fun i j => key i ≤ key j) := ⟨fun a b c => le_trans⟩
  exact List.pairwise_insertionSort _ _

def demoTable : TableEnv where
  indexOrder l := (List.range l.length).insertionSort fun i j => l.getD i 0 ≤ l.getD j 0
  enumAttr _ := false

theorem demoTable_wf : demoTable.WF where
  order_perm _ := List.perm_insertionSort _ _
  order_sorted l := sortBy_sorted (fun i => l.getD i 0) _

def ratOf? : PyFloat → Option ℚ
  | .fin q => some q
  | _ => none

def demoNum : NumEnv where
  exp x := if 0 ≤ x then 1 + x else 0
  e := 3
  sigmoid x := max 0 (min 1 x)
  tanh x := max (-1) (min 1 x)
  sqrt x := x
  f32 x := x
  argsortDesc l :=
    match l.mapM ratOf? with
    | some q => (List.range q.length).insertionSort fun i j => -q.getD i 0 ≤ -q.getD j 0
    | none => List.range l.length

theorem mapM_ratOf (l : List ℚ) : (l.map PyFloat.fin).mapM ratOf? = some l := by
  induction l with
  | nil => rfl
  | cons a t ih => rw [List.map_cons, List.mapM_cons, ih]; rfl

theorem mapM_some_length {α β} (f : α → Option β) {l : List α} {r : List β} (h : l.mapM f = some r) :
    r.length = l.length := by
  induction l generalizing r with
  | nil => rw [List.mapM_nil] at h; cases h; rfl
  | cons a t ih =>
    rw [List.mapM_cons] at h
    simp only [Option.bind_eq_bind, Option.bind_eq_some_iff, Option.pure_def, Option.some.injEq] at h
    obtain ⟨b, -, bs, hbs, rfl⟩ := h
    simp [ih hbs]

theorem demoNum_wf : demoNum.WF where
  exp_zero := by norm_num [demoNum]
  exp_mono := by
    intro a b h
    simp only [demoNum]
    split_ifs <;> linarith
  exp_nonneg := by
    intro x
    simp only [demoNum]
    split_ifs <;> linarith
  e_lower := by norm_num [demoNum]
  exp_one := by norm_num [demoNum]
  sigmoid_nonneg x := le_max_left _ _
  sigmoid_le_one x := max_le (by norm_num) (min_le_left _ _)
  f32_mono _ _ h := h
  f32_int _ _ := rfl
  argsort_perm l := by
    simp only [demoNum]
    split
    · rename_i q hq
      rw [← mapM_some_length _ hq]
      exact List.perm_insertionSort _ _
    · exact List.Perm.refl _
  argsort_sorted l := by
    simp only [demoNum, mapM_ratOf]
    have := sortBy_sorted (fun i => -l.getD i 0) (List.range l.length)
    rw [List.pairwise_map] at this ⊢
    exact this.imp fun h => neg_le_neg_iff.1 h

/-- training state: the number of steps taken -/
def demoM (weights : Config → Nat → Option Net) (loss : Option Net → List Sample → PyFloat) : MEnv Nat where
  toTableEnv := demoTable
  toNumEnv := demoNum
  parseInt _ := none
  joinPath s := s ++ "/best_multi_ad_model.pt"
  emptyShuffle := true
  initState _ := 0
  shuffle s n := (List.range n, s)
  step _ s _ := (s + 1, .fin 1)
  weights := weights
  evalLoss _ := loss

end Verif.Multi
