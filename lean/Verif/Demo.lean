import Verif.Uni.Predict

/-!
# A concrete environment

`demoEnv` is one behaviour of the libraries that satisfies every law of `Env.WF` and that the kernel can
evaluate. It is used to show that hypotheses are satisfiable and to exhibit counterexamples; no theorem about
the code is restricted to it.
-/

namespace Verif

/-- days of a plain 1970-based demonstration calendar with 30 day months (only used for demonstration data) -/
def demoStamp (s : Int) : Stamp :=
  let d := s / 86400
  ⟨s * 1000000000, 1970 + d / 360, d % 360 / 30 + 1, d % 30 + 1⟩

def demoCell : PyVal → Except PyErr (Option Stamp)
  | .int i => .ok (some (demoStamp i))
  | .none => .ok none
  | _ => .error .valueError

def demoSpline : SplineOracle := fun i v n =>
  if i.Nodup ∧ i.length = v.length then
    .ok ((List.range n).map fun p => v.getD (i.idxOf p) 0)
  else .error .valueError

def demoEnv : Env where
  parseFloat := fun _ => none
  toDatetime := fun l => l.mapM demoCell
  histMajority := fun _ => some (1 / 2)
  gaussC := 1
  sqrt := fun x => max x 0
  f32 := id
  rnd := fun _ => 0
  argsort := fun l => (List.range l.length).insertionSort fun i j => l.getD i 0 ≤ l.getD j 0
  argsortDesc := fun l => (List.range l.length).insertionSort fun i j => l.getD j 0 ≤ l.getD i 0
  criticalTable := List.replicate 18000 3
  esdValue := fun _ _ _ => .fin 3
  fitTrend := fun l _ => .ok (List.replicate l.length (npMean l))
  fitTrendNaN := fun l => .ok (List.replicate l.length 0)
  stl := fun _ l _ _ => .ok ⟨List.replicate l.length (npMean l), List.replicate l.length 0,
    l.map fun x => x - npMean l⟩
  stationary := fun _ => true
  srTransform := fun l => l.map fun x => |x| + 1
  quantile := fun l q => (sortQ l).getD ((q * l.length).floor.toNat) 0
  acf := fun _ n => List.replicate n (0, 1)
  spline := demoSpline

theorem mapM_except_ok {α β ε} {f : α → Except ε β} {l : List α} {r : List β} (h : l.mapM f = .ok r) :
    List.Forall₂ (fun a b => f a = .ok b) l r := by
  induction l generalizing r with
  | nil => simp [List.mapM_nil, pure, Except.pure] at h; subst h; exact .nil
  | cons a t ih =>
    rw [List.mapM_cons] at h
    cases ha : f a with
    | error e => simp [ha, bind, Except.bind] at h
    | ok b =>
      cases ht : t.mapM f with
      | error e => simp [ha, ht, bind, Except.bind] at h
      | ok bs =>
        simp [ha, ht, bind, Except.bind, pure, Except.pure] at h
        subst h
        exact .cons ha (ih ht)

theorem demoEnv_WF : demoEnv.WF where
  toDatetime_len := fun _ _ h => (mapM_except_ok h).length_eq.symm
  hist_pos := by
    intro l r h
    simp only [demoEnv, Option.some.injEq] at h
    subst h; norm_num
  gauss_pos := by norm_num [demoEnv]
  sqrt_nonneg := fun x => le_max_right _ _
  sqrt_zero := by
    intro x hx
    show max x 0 = 0 ↔ x = 0
    rw [max_eq_left hx]
  f32_mono := monotone_id
  argsort_perm := fun l => List.perm_insertionSort _ _
  argsort_sorted := by
    intro l
    rw [List.pairwise_map]
    exact List.pairwise_insertionSort (Order.Preimage (fun i => l.getD i 0) (· ≤ ·)) _
  argsortDesc_perm := fun l => List.perm_insertionSort _ _
  argsortDesc_sorted := by
    intro l
    rw [List.pairwise_map]
    exact List.pairwise_insertionSort (Order.Preimage (fun i => l.getD i 0) (· ≥ ·)) _
  table_len := List.length_replicate
  trend_len := by
    intro l p r h
    simp only [demoEnv, Except.ok.injEq] at h
    subst h; simp
  trendNaN_len := by
    intro l r h
    simp only [demoEnv, Except.ok.injEq] at h
    subst h; simp
  stl_len := by
    intro a l p g r h
    simp only [demoEnv, Except.ok.injEq] at h
    subst h; simp
  sr_len := fun l => List.length_map _
  sr_nonneg := by
    intro l x h
    simp only [demoEnv, List.mem_map] at h
    obtain ⟨y, -, rfl⟩ := h
    positivity
  acf_len := fun l n => List.length_replicate
  spline_len := by
    intro i v n r h
    simp only [demoEnv, demoSpline] at h
    split at h
    · simp only [Except.ok.injEq] at h
      subst h; simp
    · cases h
  spline_knot := by
    intro i v n r h k hk hkn
    simp only [demoEnv, demoSpline] at h
    split at h
    · rename_i hc
      simp only [Except.ok.injEq] at h
      subst h
      have e : i.getD k 0 = i[k] := by simp [List.getD_eq_getElem?_getD, hk]
      rw [e] at hkn ⊢
      have h2 : i.idxOf i[k] = k := hc.1.idxOf_getElem k hk
      simp [List.getD_eq_getElem?_getD, hkn, h2]
    · cases h

/-- No library behaviour outside the model. -/
def demoWild : Wild := fun _ _ _ _ _ _ _ _ => .error .exception

/-- rows (i-th second, value) -/
def demoRows (vs : List Int) (step : Int := 1) : List (PyVal × PyVal) :=
  vs.zipIdx.map fun x => (.int (x.2 * step), .int x.1)

/-- number of items of a successful outcome -/
def okLen (r : CallResult) : Option Nat :=
  match r.outcome with
  | .ok l => some l.length
  | .error _ => none

/-- error of a failed outcome -/
def errOf (r : CallResult) : Option PyErr :=
  match r.outcome with
  | .ok _ => none
  | .error e => some e

/-- the flags of a successful outcome -/
def okFlags (r : CallResult) : Option (List (Bool × Bool × Bool)) :=
  match r.outcome with
  | .ok l => some (l.map fun i => (i.anom, i.pos, i.neg))
  | .error _ => none

end Verif
