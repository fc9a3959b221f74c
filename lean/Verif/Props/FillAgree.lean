import Verif.Props.FillPolicy

/-!
# The fills of `predict` are calls of `fill_up` (C98)

`Uni/FillUp.lean` models the calls `predict` makes, `Uni/FillMethods.lean` all calls. The two agree.
-/

namespace Verif
open Spec

/-- an exception of the code as an outcome of `fill_up` -/
def raised {α : Type} : Except PyErr α → Except FillStop α
  | .ok x => .ok x
  | .error e => .error (.err e)

def OnError.ofIf : IfException → OnError
  | .raise => .raise
  | .fillWithNone => .none

theorem fillLoop_step {f : Nat → Nat → List (Option ℚ) → Except FillStop Fill} {g : Nat → Nat → List (Option ℚ) → Except PyErr (Option ℚ)}
    {onErr : IfException} {values : List ℚ} {n : Nat} (Inv : List (Option ℚ) → Prop) (hset : ∀ l i v, Inv l → Inv (l.set i v))
    (hfg : ∀ i j full, Inv full → f i j full = (raised (g i j full)).map .one)
    {fuel i j : Nat} {idx : List Nat} {full : List (Option ℚ)} (hI : Inv full) (hn : n = i + fuel) (hc : Covers idx i fuel) :
    fillLoop f (.ofIf onErr) values n fuel i j idx full = raised (stepLoop g onErr fuel i j idx full) := by
  induction fuel generalizing i j idx full with
  | zero =>
    unfold fillLoop stepLoop
    rw [if_pos (by omega)]
    rfl
  | succ fuel ih =>
    unfold fillLoop
    rw [if_neg (by omega)]
    cases idx with
    | nil => exact absurd rfl hc.ne_nil
    | cons k t =>
      unfold stepLoop
      by_cases hk : k = i
      · subst hk
        simp only [if_true]
        exact ih hI (by omega) hc.hit
      · have hik : i < k := by have := (hc.mem k (by simp)).1; omega
        simp only [if_neg hk, if_neg (show ¬ k < i by omega)]
        rw [hfg i j full hI]
        cases hg : g i j full with
        | ok v => exact ih (hset _ _ _ hI) (by omega) (hc.miss hk)
        | error e =>
          cases onErr with
          | raise => rfl
          | fillWithNone => exact ih (hset _ _ _ hI) (by omega) (hc.miss hk)

/-- the call of `fill_up` that each imputation mode makes; `none`: no call -/
def callOf (mode : FillUpMode) (fixed : Option ℚ) (period : Nat) : Option (String × FillArgs) :=
  match mode with
  | .previous | .use_last => some ("last", {})
  | .fixed => some ("constant", { number := fixed })
  | .linear => some ("linear", {})
  | .auto => some ("auto", { period := some (.int period), ifException := some "fill_with_last" })
  | .no | .zero | .notFill => none

/-- **C98**. The imputation of each mode is the call `callOf`, errors included. -/
theorem C98_on_demand {spline : SplineOracle} {idx : List Int} {vs : List ℚ} {P : FillProc} (hne : idx ≠ [])
    (hP : FillProc.init idx vs = .ok P) (mode : FillUpMode) (fixed : Option ℚ) (period : Nat) :
    raised (fillUpOnDemand spline P mode fixed period) =
      match callOf mode fixed period with
      | some (method, a) => P.fillUp spline method a
      | none => .ok none := by
  obtain ⟨hg, -, -⟩ := FillProc.init_good hne hP
  have hmap : ∀ x : Except PyErr (List (Option ℚ)), raised (x.map fun l => some (l, P.tags)) =
      (raised x).map fun l => some (l, P.tags) := by intro x; cases x <;> rfl
  have last : raised (if P.need then (P.fillLast).map fun l => some (l, P.tags) else .ok none) = P.fillUp spline "last" {} := by
    unfold FillProc.fillUp
    cases hn : P.need
    · rfl
    · simp only [if_true, hmap]
      refine congrArg (Except.map _) ?_
      symm
      refine fillLoop_step (onErr := .raise) (fun _ => True) (fun _ _ _ _ => trivial) ?_ trivial (by omega) hg.covers
      intro i j full _
      unfold stepMethod funcLast
      simp only
      cases P.values[j - 1]? <;> rfl
  unfold fillUpOnDemand callOf
  cases mode <;> simp only
  case previous => exact last
  case use_last => exact last
  case fixed =>
    unfold FillProc.fillUp
    cases hn : P.need
    · rfl
    · simp only [if_true, hmap]
      refine congrArg (Except.map _) ?_
      symm
      refine fillLoop_step (onErr := .raise) (fun _ => True) (fun _ _ _ _ => trivial) ?_ trivial (by omega) hg.covers
      intro i j full _
      rfl
  case linear =>
    unfold FillProc.fillUp
    cases hn : P.need <;> rfl
  case auto =>
    unfold FillProc.fillUp
    cases hn : P.need
    · rfl
    · simp only [if_true, hmap]
      have h1 : FillArgs.periodOf { period := some (.int period), ifException := some "fill_with_last" } = .ok (max period 1) := by
        simp [FillArgs.periodOf, PyVal.asInt?]
      have h2 : FillArgs.onError { period := some (.int period), ifException := some "fill_with_last" } = .ok .last := rfl
      have h3 : FillArgs.onShort { period := some (.int period), ifException := some "fill_with_last" } = .ok .tryBest := rfl
      have h4 : FillMethod.ofName "auto" = some .auto := rfl
      rw [h1, h2, h3, h4]
      simp only [Bool.true_eq_false, if_false]
      refine congrArg (Except.map _) ?_
      unfold FillProc.fillAuto fillWith entireFill
      simp only
      cases P.autoBody spline (max period 1) <;> rfl
  all_goals rfl

/-! ### the weighted average inside `auto` -/

theorem walk_periodical {arr : List (Option ℚ)} {info : List GapInfo} {fw : Bool} {sp : Int} {fuel n : Nat} {i : Int} (h : n ≤ fuel) :
    walk arr info false false fw sp fuel n i = periodicalLoop arr info fw sp n i := by
  induction fuel generalizing n i with
  | zero =>
    obtain rfl : n = 0 := by omega
    rfl
  | succ fuel ih =>
    cases n with
    | zero => rfl
    | succ n =>
      unfold walk periodicalLoop
      simp only [true_and, Bool.false_eq_true, false_and, if_false]
      split
      · cases info[i.toNat]? with
        | none => rfl
        | some g =>
          simp only
          split <;> rw [ih (by omega)]
      · rfl

/-- the call of `fill_up.py:257-262` -/
def autoArgs (period : Nat) : FillArgs :=
  { backwardN := some 3, forwardN := some 3, period := some (.int period), considerPeriod := true, ifShort := some "ignore",
    weights := some (some autoWeights), ifException := some "fill_with_none" }

theorem funcWeightedAvg_basic {P : FillProc} {period i j : Nat} (hp : 1 < period) {full : List (Option ℚ)} (hl : 2 ≤ full.length) :
    basicFunc P (autoArgs period) .ignore period .average (some autoWeights) i j full =
      raised (funcWeightedAvg P.info period i full) := by
  have hb : periodical full P.info false false i 3 period false = periodicalValues full P.info i 3 period false := by
    unfold periodical periodicalValues
    rw [walk_periodical (by omega), walk_periodical (by omega)]
  have hf : periodical full P.info false false i 3 period true = periodicalValues full P.info i 3 period true := by
    unfold periodical periodicalValues
    rw [walk_periodical (by omega), walk_periodical (by omega)]
  have lb : ((periodicalValues full P.info i 3 period false).filterMap id).length ≤ 3 := by
    refine le_trans (List.length_filterMap_le _ _) ?_
    unfold periodicalValues
    simp only [Bool.false_eq_true, if_false, List.length_reverse]
    exact periodicalLoop_length
  have lf : ((periodicalValues full P.info i 3 period true).filterMap id).length ≤ 3 := by
    refine le_trans (List.length_filterMap_le _ _) ?_
    unfold periodicalValues
    simp only [if_true]
    exact periodicalLoop_length
  have hlook : lookAround P false .ignore period 3 3 i j full =
      .ok (if (periodicalValues full P.info i 3 period false).filterMap id = [] ∧
        (periodicalValues full P.info i 3 period true).filterMap id = [] then none
        else some ((periodicalValues full P.info i 3 period false).filterMap id,
          (periodicalValues full P.info i 3 period true).filterMap id)) := by
    unfold lookAround
    simp only [reduceCtorEq, decide_false, false_and, and_false, if_false, hb, hf]
    split
    · split <;> rfl
    · rename_i hc
      push Not at hc
      obtain ⟨c1, c2, c3, c4⟩ := hc
      have e1 := filterMap_whole c1
      rw [if_neg]
      intro h
      rw [h.1] at e1
      simp only [List.length_nil] at e1
      omega
  unfold basicFunc
  simp only [autoArgs, true_and, hp, if_true, Option.getD_some]
  rw [hlook]
  unfold funcWeightedAvg
  simp only
  revert lb lf
  generalize (periodicalValues full P.info i 3 period false).filterMap id = b
  generalize (periodicalValues full P.info i 3 period true).filterMap id = f
  intro lb lf
  simp only [List.length_eq_zero_iff]
  by_cases he : b = [] ∧ f = []
  · simp only [if_pos he]
    rfl
  · simp only [if_neg he]
    unfold reduceWith
    have hw : autoWeights.length = 6 := rfl
    simp only [hw, ne_eq, not_true_eq_false, if_false]
    have hpos : 0 < b.length + f.length := by
      rw [← List.length_append]
      refine List.length_pos_of_ne_nil ?_
      intro e
      exact he (List.append_eq_nil_iff.1 e)
    rw [if_neg]
    · rfl
    · refine ne_of_gt (List.sum_pos _ ?_ ?_)
      · intro x hx
        have := List.mem_of_mem_drop (List.mem_of_mem_take hx)
        revert x
        unfold autoWeights
        simp only [List.mem_cons, List.not_mem_nil, or_false]
        intro x _ h
        rcases h with h | h | h | h | h | h <;> rw [h] <;> norm_num
      · refine List.ne_nil_of_length_pos ?_
        rw [List.length_take, List.length_drop, hw]
        omega

/-- **C98** (inside 'auto'). The second pass of 'auto' over the large gaps is the call 'weighted_avg' with `autoArgs`. -/
theorem C98_large_gaps {spline : SplineOracle} {idx : List Int} {vs : List ℚ} {P : FillProc} (hne : idx ≠ [])
    (hP : FillProc.init idx vs = .ok P) (hneed : P.need = true) {period : Nat} (hp : 1 < period) :
    P.fillUp spline "weighted_avg" (autoArgs period) =
      (raised (stepLoop (fun i _ full => funcWeightedAvg P.info period i full) .fillWithNone P.allCount 0 0 P.indices
        (valuesToFill P.allCount P.indices P.values))).map fun l => some (l, P.tags) := by
  obtain ⟨hg, -, -⟩ := FillProc.init_good hne hP
  have h1 : (autoArgs period).periodOf = .ok period := by
    unfold FillArgs.periodOf autoArgs
    simp only [PyVal.asInt?]
    rw [if_neg (by omega), show max (period : Int).toNat 1 = period by omega]
  have h2 : (autoArgs period).onError = .ok .none := rfl
  have h3 : (autoArgs period).onShort = .ok .ignore := rfl
  have h4 : FillMethod.ofName "weighted_avg" = some .weightedAvg := rfl
  have hlen : 2 ≤ P.allCount := by
    have a1 := (hg.need.1 hneed).1
    have a2 := List.length_pos_of_mem hg.head
    omega
  unfold FillProc.fillUp
  rw [h1, h2, h3, h4, if_neg (by simp [hneed])]
  simp only
  refine congrArg (Except.map _) ?_
  refine fillLoop_step (onErr := .fillWithNone) (fun l => l.length = P.allCount) (by simp) ?_ hg.toFill.1 (by omega) hg.covers
  intro i j full hl
  unfold stepMethod
  have h5 : (autoArgs period).weights = some (some autoWeights) := rfl
  simp only [h5]
  rw [funcWeightedAvg_basic hp (by omega)]

/-! ### non-vacuity -/

/-- a period of 4 -/
example : demoCall "weighted_avg" (autoArgs 4) =
    some ([some 1, some 2, some 3, some 2, some 1, some 9, some 3, some 2, some 1, some (20/3), some 1, some 2]) := by decide +kernel

end Verif
