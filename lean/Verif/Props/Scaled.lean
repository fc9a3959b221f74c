import Verif.Props.Mirror
import Verif.Props.Versions
import Mathlib.Data.Int.Log

/-!
# The unit of the values (C135)

What the spectral residual model answers for a series and for the same series measured in another unit.
-/

namespace Verif

open Spec

namespace Spec

/-- every value multiplied by `c` -/
def scaled (c : ℚ) (l : List ℚ) : List ℚ := l.map fun x => c * x

/-- What is assumed of the numerical library: multiplying the input by `c` multiplies quantiles and square roots accordingly; the tests for stationarity and the
histogram do not see it, and neither does the spectral residual of the lists in `S` (`C86_scale`: those in which no frequency vanishes). -/
structure Scale (E : Env) (c : ℚ) (S : List ℚ → Prop) : Prop where
  transform : ∀ l, S l → E.srTransform (scaled c l) = E.srTransform l
  quantile : ∀ l q, E.quantile (scaled c l) q = c * E.quantile l q
  stationary : ∀ l, E.stationary (scaled c l) = E.stationary l
  root : ∀ x, E.sqrt (c ^ 2 * x) = c * E.sqrt x
  histogram : ∀ l, E.histMajority (scaled c l) = E.histMajority l

/-- `l` is handed to the spectral residual transform for the series `s`: the series, or a beginning of it followed by its last value, with the estimated
continuation -/
def Transformed (E : Env) (s l : List ℚ) : Prop :=
  ∃ x b, (x = s ∨ ∃ k, x = s.take k ++ [s.getLastD 0]) ∧ extendSeries E x b = .ok l

/-- the values of the rows -/
def HasValues (parse : String → Option PyFloat) : DataArg → List ℚ → Prop
  | .frame _ _ rows, s => s.length = rows.length ∧ ∀ i q, s[i]? = some q → RowValue parse rows i q
  | _, _ => False

/-- every list that is handed to the transform lies in `S`, for the series of values and for its differences where these are looked at -/
def Regular (E : Env) (S : List ℚ → Prop) (data : DataArg) : Prop :=
  ∀ s, HasValues E.parseFloat data s → (∀ l, Transformed E s l → S l) ∧
    ∀ k ds, shouldIncludeDelta E s = .ok (some (k, ds)) → ∀ l, Transformed E ds l → S l

end Spec

/-! ### arithmetic -/

variable {c : ℚ} {S : List ℚ → Prop}

theorem scaled_getD (c : ℚ) (l : List ℚ) (i : Nat) : (scaled c l).getD i 0 = c * l.getD i 0 := by
  unfold scaled
  rw [List.getD_eq_getElem?_getD, List.getD_eq_getElem?_getD, List.getElem?_map]
  cases l[i]? <;> simp

theorem scaled_length (c : ℚ) (l : List ℚ) : (scaled c l).length = l.length := List.length_map ..

theorem scaled_cons (c a : ℚ) (t : List ℚ) : scaled c (a :: t) = c * a :: scaled c t := rfl

theorem scaled_append (c : ℚ) (a b : List ℚ) : scaled c (a ++ b) = scaled c a ++ scaled c b := List.map_append ..

theorem scaled_take (c : ℚ) (a : List ℚ) (n : Nat) : (scaled c a).take n = scaled c (a.take n) := (List.map_take ..).symm

theorem scaled_drop (c : ℚ) (a : List ℚ) (n : Nat) : (scaled c a).drop n = scaled c (a.drop n) := (List.map_drop ..).symm

theorem scaled_dropLast (c : ℚ) (a : List ℚ) : (scaled c a).dropLast = scaled c a.dropLast := List.map_dropLast.symm

theorem scaled_getLastD (c : ℚ) (l : List ℚ) : (scaled c l).getLastD 0 = c * l.getLastD 0 := by
  unfold scaled
  rw [List.getLastD_eq_getLast?, List.getLastD_eq_getLast?, List.getLast?_map]
  cases l.getLast? <;> simp

theorem scaled_replicate (c a : ℚ) (n : Nat) : scaled c (List.replicate n a) = List.replicate n (c * a) := List.map_replicate ..

theorem scaled_sum (c : ℚ) (l : List ℚ) : (scaled c l).sum = c * l.sum := by
  induction l with
  | nil => simp [scaled]
  | cons a t ih => rw [scaled_cons, List.sum_cons, List.sum_cons, ih]; ring

theorem npMean_scaled (c : ℚ) (l : List ℚ) : npMean (scaled c l) = c * npMean l := by
  unfold npMean
  rw [scaled_sum, scaled_length]
  ring

theorem npVar_scaled (c : ℚ) (l : List ℚ) : npVar (scaled c l) = c ^ 2 * npVar l := by
  unfold npVar
  rw [npMean_scaled, ← npMean_scaled (c ^ 2)]
  congr 1
  unfold scaled
  rw [List.map_map, List.map_map]
  refine List.map_congr_left fun x _ => ?_
  simp only [Function.comp]
  ring

theorem isRank_scaled (hc : 0 < c) {l : List ℚ} {k : Nat} {v : ℚ} (h : IsRank l k v) : IsRank (scaled c l) k (c * v) := by
  obtain ⟨s, h1, h2, h3⟩ := h
  refine ⟨scaled c s, h1.map _, List.pairwise_map.2 (h2.imp fun h => mul_le_mul_of_nonneg_left h hc.le), ?_⟩
  unfold scaled
  rw [List.getElem?_map, h3]
  rfl

theorem isMedian_scaled (hc : 0 < c) {l : List ℚ} {m : ℚ} (h : IsMedian l m) : IsMedian (scaled c l) (c * m) := by
  rcases h with ⟨h1, h⟩ | ⟨h1, a, b, ha, hb, rfl⟩
  · exact .inl ⟨by rwa [scaled_length], by rw [scaled_length]; exact isRank_scaled hc h⟩
  · exact .inr ⟨by rwa [scaled_length], c * a, c * b, by rw [scaled_length]; exact isRank_scaled hc ha,
      by rw [scaled_length]; exact isRank_scaled hc hb, by ring⟩

theorem npMedian_scaled (hc : 0 < c) (l : List ℚ) : npMedian (scaled c l) = c * npMedian l := by
  by_cases h : l = []
  · subst h
    have : npMedian [] = 0 := by decide +kernel
    rw [show scaled c [] = [] from rfl, this, mul_zero]
  · have h' : scaled c l ≠ [] := by simpa [scaled] using h
    exact (isMedian_npMedian h').unique (isMedian_scaled hc (isMedian_npMedian h))

theorem npMax_scaled (hc : 0 < c) (l : List ℚ) : npMax (scaled c l) = c * npMax l := by
  by_cases h : l = []
  · subst h
    show (0 : ℚ) = c * 0
    ring
  have h' : scaled c l ≠ [] := by simpa [scaled] using h
  apply le_antisymm
  · refine npMax_le h' fun x hx => ?_
    obtain ⟨y, hy, rfl⟩ := List.mem_map.1 hx
    exact mul_le_mul_of_nonneg_left (le_npMax hy) hc.le
  · exact le_npMax (List.mem_map.2 ⟨_, npMax_mem h, rfl⟩)

theorem npMin_scaled (hc : 0 < c) (l : List ℚ) : npMin (scaled c l) = c * npMin l := by
  by_cases h : l = []
  · subst h
    show (0 : ℚ) = c * 0
    ring
  have h' : scaled c l ≠ [] := by simpa [scaled] using h
  apply le_antisymm
  · exact npMin_le (List.mem_map.2 ⟨_, npMin_mem h, rfl⟩)
  · refine le_npMin h' fun x hx => ?_
    obtain ⟨y, hy, rfl⟩ := List.mem_map.1 hx
    exact mul_le_mul_of_nonneg_left (npMin_le hy) hc.le

theorem cumsumFrom_scaled (c : ℚ) (l : List ℚ) (s : ℚ) : cumsumFrom (c * s) (scaled c l) = scaled c (cumsumFrom s l) := by
  induction l generalizing s with
  | nil => rfl
  | cons a t ih =>
    rw [scaled_cons]
    simp only [cumsumFrom]
    rw [show c * s + c * a = c * (s + a) by ring, ih]
    rfl

theorem cumsum_scaled (c : ℚ) (l : List ℚ) : cumsum (scaled c l) = scaled c (cumsum l) := by
  have := cumsumFrom_scaled c l 0
  rwa [mul_zero] at this

theorem averageFilter_scaled (c : ℚ) (l : List ℚ) (n : Nat) (b : Bool) : averageFilter (scaled c l) n b = scaled c (averageFilter l n b) := by
  unfold averageFilter
  dsimp only
  rw [scaled_length, cumsum_scaled]
  conv_rhs => unfold scaled
  rw [List.map_map]
  refine List.map_congr_left fun i _ => ?_
  simp only [scaled_getD, Function.comp]
  generalize (if l.length ≤ n then l.length else n) = m
  split
  · ring
  · split
    · rfl
    · split
      · ring
      · ring

/-! ### the scores -/

theorem predictNext_scaled (hc : 0 < c) (l : List ℚ) : predictNext (scaled c l) = (predictNext l).map fun x => c * x := by
  unfold predictNext
  dsimp only
  rw [scaled_length]
  split
  · rfl
  · simp only [Except.map]
    congr 1
    rw [npMedian_scaled hc]
    have h2 : ((scaled c l).dropLast.zipIdx).map (fun x => ((scaled c l).getLastD 0 - x.1) / ((l.length : ℚ) - 1 - x.2)) =
        scaled c ((l.dropLast.zipIdx).map fun x => (l.getLastD 0 - x.1) / ((l.length : ℚ) - 1 - x.2)) := by
      rw [scaled_getLastD]
      unfold scaled
      rw [← List.map_dropLast, List.zipIdx_map, List.map_map, List.map_map]
      refine List.map_congr_left fun x _ => ?_
      simp only [Function.comp, Prod.map, id]
      ring
    rw [h2, scaled_sum]
    ring

theorem aheadLoop_scaled (hc : 0 < c) (lo hi : ℚ) (l : List ℚ) (k : Nat) (acc : List ℚ) :
    aheadLoop (c * lo) (c * hi) (scaled c l) k (scaled c acc) = scaled c (aheadLoop lo hi l k acc) := by
  induction l generalizing k acc with
  | nil => cases k <;> rfl
  | cons v t ih =>
    rw [scaled_cons]
    cases k with
    | zero => rfl
    | succ k =>
      simp only [aheadLoop, mul_le_mul_iff_right₀ hc]
      split
      · rw [← ih]
        congr 1
        unfold scaled
        rw [List.map_set]
      · exact ih _ _

theorem extendSeries_scaled {E : Env} (hc : 0 < c) (hS : Scale E c S) (l : List ℚ) (b : Bool) :
    extendSeries E (scaled c l) b = (extendSeries E l b).map (scaled c) := by
  have key : ∀ a : List ℚ, (do
      let p ← predictNext (scaled c a)
      pure (scaled c l ++ List.replicate 5 p) : Except PyErr (List ℚ)) = (do
      let p ← predictNext a
      pure (l ++ List.replicate 5 p) : Except PyErr (List ℚ)).map (scaled c) := by
    intro a
    rw [predictNext_scaled hc]
    cases predictNext a with
    | error e => rfl
    | ok p =>
      simp only [Except.map, bind, Except.bind, pure, Except.pure]
      rw [scaled_append, scaled_replicate]
  unfold extendSeries
  cases b with
  | false =>
    simp only [Bool.false_eq_true, if_false]
    rw [scaled_length, scaled_drop, scaled_dropLast]
    exact key _
  | true =>
    simp only [if_true]
    rw [hS.quantile, hS.quantile, hS.quantile]
    rw [← key, ← aheadLoop_scaled hc, scaled_replicate]
    have h1 : scaled c l.reverse = (scaled c l).reverse := List.map_reverse ..
    rw [h1, show c * E.quantile l (3 / 4) + 3 / 2 * (c * E.quantile l (3 / 4) - c * E.quantile l (1 / 4)) =
        c * (E.quantile l (3 / 4) + 3 / 2 * (E.quantile l (3 / 4) - E.quantile l (1 / 4))) by ring,
      show c * E.quantile l (1 / 4) - 3 / 2 * (c * E.quantile l (3 / 4) - c * E.quantile l (1 / 4)) =
        c * (E.quantile l (1 / 4) - 3 / 2 * (E.quantile l (3 / 4) - E.quantile l (1 / 4))) by ring]

theorem spectralScore_scaled {E : Env} (hc : 0 < c) (hS : Scale E c S) (l : List ℚ) (b : Bool)
    (hR : ∀ x, extendSeries E l b = .ok x → S x) : spectralScore E (scaled c l) b = spectralScore E l b := by
  unfold spectralScore
  rw [extendSeries_scaled hc hS]
  cases hx : extendSeries E l b with
  | error e => rfl
  | ok x =>
    simp only [Except.map, bind, Except.bind]
    rw [hS.transform _ (hR x hx), scaled_length]

theorem std_scaled {E : Env} (hS : Scale E c S) (l : List ℚ) : E.std (scaled c l) = c * E.std l := by
  unfold Env.std
  rw [npVar_scaled, hS.root]

theorem srScores_scaled {E : Env} (hc : 0 < c) (hS : Scale E c S) (l : List ℚ) (m : Nat) (last : Bool)
    (hR : ∀ x, Transformed E l x → S x) : srScores E (scaled c l) m last = srScores E l m last := by
  have k1 : ∀ b, spectralScore E (scaled c l) b = spectralScore E l b := fun b => spectralScore_scaled hc hS l b fun x hx => hR x ⟨l, b, .inl rfl, hx⟩
  have k2 : ∀ cut, spectralScore E (scaled c (l.take cut ++ [l.getLastD 0])) false = spectralScore E (l.take cut ++ [l.getLastD 0]) false :=
    fun cut => spectralScore_scaled hc hS _ _ fun x hx => hR x ⟨_, false, .inr ⟨cut, rfl⟩, hx⟩
  unfold srScores
  cases last with
  | false => simp only [Bool.false_eq_true, if_false, k1]
  | true =>
    simp only [if_true, k1, scaled_length, std_scaled hS, npMean_scaled, scaled_getLastD, scaled_take]
    have h1 : ∀ cut, scaled c (l.take cut) ++ [c * l.getLastD 0] = scaled c (l.take cut ++ [l.getLastD 0]) := by
      intro cut
      rw [scaled_append]
      rfl
    have h2 : (c * E.std l ≠ 0) = (E.std l ≠ 0) := by simp [hc.ne']
    have h3 : |c * l.getLastD 0 - c * npMean l| / (c * E.std l) = |l.getLastD 0 - npMean l| / E.std l := by
      rw [← mul_sub, abs_mul, abs_of_pos hc, mul_div_mul_left _ _ hc.ne']
    simp only [h1, h2, h3, scaled_length, k2]

theorem srExpectedEntire_scaled (c : ℚ) (l : List ℚ) (skel : List Bool) : srExpectedEntire (scaled c l) skel = scaled c (srExpectedEntire l skel) := by
  unfold srExpectedEntire
  dsimp only
  rw [← averageFilter_scaled]
  congr 1
  rw [scaled_length]
  conv_rhs => unfold scaled
  rw [List.map_map]
  refine List.map_congr_left fun i _ => ?_
  simp only [Function.comp]
  rw [scaled_getD]
  have hz : (scaled c l).zip skel = (l.zip skel).map fun x => (c * x.1, x.2) := by
    unfold scaled
    rw [List.zip_map_left]
    rfl
  split
  · rfl
  · rw [hz, ← List.map_take, ← List.map_drop, List.filter_map, List.length_map]
    have hf : ((fun x : ℚ × Bool => x.2) ∘ fun x : ℚ × Bool => (c * x.1, x.2)) = fun x => x.2 := rfl
    rw [hf]
    split
    · rw [scaled_take, npMean_scaled]
    · rw [List.map_map]
      have : List.map ((fun x : ℚ × Bool => if x.2 = true then x.1 else 0) ∘ fun x : ℚ × Bool => (c * x.1, x.2))
          (List.drop (i / 2) (List.take (i + 1) (l.zip skel))) =
          scaled c (List.map (fun x : ℚ × Bool => if x.2 = true then x.1 else 0) (List.drop (i / 2) (List.take (i + 1) (l.zip skel)))) := by
        unfold scaled
        rw [List.map_map]
        refine List.map_congr_left fun x _ => ?_
        simp only [Function.comp]
        split <;> simp
      rw [this, scaled_sum]
      ring

theorem srExpectedLast_scaled (c : ℚ) (l : List ℚ) (skel : List Bool) : srExpectedLast (scaled c l) skel = (srExpectedLast l skel).map (scaled c) := by
  unfold srExpectedLast
  dsimp only
  have hz : (((scaled c l).zip skel).filter (·.2)).map (·.1) = scaled c (((l.zip skel).filter (·.2)).map (·.1)) := by
    unfold scaled
    rw [List.zip_map_left, List.filter_map, List.map_map, List.map_map]
    rfl
  rw [hz, scaled_length, scaled_drop, scaled_length, npMean_scaled, scaled_length]
  split
  · rfl
  · simp only [Option.map_some]
    unfold scaled
    rw [List.map_set]

/-! ### the rows -/

/-- the row in the other unit -/
def scaleRow (c : ℚ) (r : Row) : Row := { r with value := c * r.value, expected := c * r.expected, trend := r.trend.map fun x => c * x }

theorem assemble_scaled (hc : 0 < c) (v e : List ℚ) (s : Option (List ℚ)) (an : List Nat) :
    assemble (scaled c v) (scaled c e) none s an = (assemble v e none s an).map (scaleRow c) := by
  unfold assemble
  rw [scaled_length, List.map_map]
  refine List.map_congr_left fun i _ => ?_
  simp only [Function.comp, scaleRow, scaled_getD, Option.map_none]
  have : modifyStatus (an.contains i) (c * e.getD i 0) (c * v.getD i 0) = modifyStatus (an.contains i) (e.getD i 0) (v.getD i 0) := by
    unfold modifyStatus
    simp only [mul_lt_mul_iff_right₀ hc]
  rw [this]

theorem srDetection_scaled {E : Env} (hc : 0 < c) (hS : Scale E c S) (s : List ℚ) (th : PyFloat) (r : ℚ) (last : Bool)
    (hR : ∀ x, Transformed E s x → S x) :
    srDetection E (scaled c s) th r false last = (srDetection E s th r false last).map fun x => (x.1.map (scaleRow c), x.2) := by
  unfold srDetection
  dsimp only
  rw [scaled_length, srScores_scaled hc hS _ _ _ hR]
  cases srScores E s (max ((dmul s.length r).floor.toNat) 1) last with
  | error e => rfl
  | ok x =>
    obtain ⟨sc, md⟩ := x
    simp only [bind, Except.bind]
    rw [srExpectedLast_scaled, srExpectedEntire_scaled]
    have hset : (scaled c s).set (s.length - 1) 0 = scaled c (s.set (s.length - 1) 0) := by
      unfold scaled
      rw [List.map_set, mul_zero]
    have hmod : ∀ (l : List Row) (n : Nat), (l.map (scaleRow c)).modify n nanLastRow = (l.modify n nanLastRow).map (scaleRow c) := by
      intro l n
      induction l generalizing n with
      | nil => cases n <;> rfl
      | cons a t ih =>
        cases n with
        | zero => rfl
        | succ n => simp only [List.map_cons, List.modify_succ_cons, ih]
    cases last with
    | false =>
      simp only [Bool.false_eq_true, if_false, srTrend, Except.map, pure, Except.pure, assemble_scaled hc]
    | true =>
      simp only [if_true]
      cases srExpectedLast s (sc.map fun s => decide (s ≤ 1)) with
      | none => simp only [Option.map_none, srTrend, Bool.false_eq_true, if_false, Except.map, pure, Except.pure, hset, assemble_scaled hc, hmod]
      | some e => simp only [Option.map_some, srTrend, Bool.false_eq_true, if_false, Except.map, pure, Except.pure, assemble_scaled hc]

/-! ### the second pass -/

theorem diffs_scaled (c : ℚ) (l : List ℚ) : diffs (scaled c l) = scaled c (diffs l) := by
  induction l with
  | nil => rfl
  | cons a t ih =>
    cases t with
    | nil => rfl
    | cons b t =>
      have e2 : diffs (c * a :: c * b :: scaled c t) = (c * b - c * a) :: diffs (c * b :: scaled c t) := rfl
      have e3 : scaled c (diffs (a :: b :: t)) = c * (b - a) :: scaled c (diffs (b :: t)) := rfl
      rw [scaled_cons, scaled_cons, e2, e3, ← ih, ← mul_sub]
      rfl

theorem getDelta_scaled (c : ℚ) (k : Nat) (l : List ℚ) : getDelta k (scaled c l) = (getDelta k l).map (scaled c) := by
  unfold getDelta
  dsimp only
  rw [diffs_scaled]
  have : (scaled c (diffs l))[k]? = (diffs l)[k]?.map fun x => c * x := List.getElem?_map ..
  rw [this]
  cases (diffs l)[k]? with
  | none => rfl
  | some x =>
    simp only [Option.map_some, Except.map]
    rw [scaled_append, scaled_replicate, scaled_drop]

theorem deltaLoop_scaled {E : Env} (hS : Scale E c S) (n k : Nat) (l : List ℚ) :
    deltaLoop E n k (scaled c l) = (deltaLoop E n k l).map fun o => o.map fun x => (x.1, scaled c x.2) := by
  induction n generalizing k l with
  | zero => rfl
  | succ n ih =>
    simp only [deltaLoop, hS.stationary]
    split
    · rfl
    · rw [getDelta_scaled]
      cases getDelta k l with
      | error e => rfl
      | ok x => exact ih _ _

theorem revDeltaLoop_scaled (c : ℚ) (l : List ℚ) (a : ℚ) : revDeltaLoop (scaled c l) (c * a) = scaled c (revDeltaLoop l a) := by
  induction l generalizing a with
  | nil => rfl
  | cons d t ih =>
    rw [scaled_cons]
    simp only [revDeltaLoop]
    rw [← mul_add, ih]
    rfl

theorem undelta_scaled (c : ℚ) (k : Nat) (vs l : List ℚ) : undelta k (scaled c vs) (scaled c l) = (undelta k vs l).map (scaled c) := by
  unfold undelta
  split
  · unfold reverseDelta
    rw [if_neg (by simp), if_neg (by simp), scaled_getD, scaled_getD, ← mul_sub, scaled_drop, revDeltaLoop_scaled]
    simp only [Except.map]
    rw [scaled_append, scaled_replicate]
  · rfl

theorem scaled_rows (c : ℚ) (rows : List Row) :
    (rows.map (scaleRow c)).map (·.value) = scaled c (rows.map (·.value)) ∧ (rows.map (scaleRow c)).map (·.expected) = scaled c (rows.map (·.expected)) ∧
      ((rows.map (scaleRow c)).map fun r => r.trend.getD 0) = scaled c (rows.map fun r => r.trend.getD 0) ∧
      (((rows.map (scaleRow c)).filter (·.anom)).length = (rows.filter (·.anom)).length) := by
  unfold scaled
  simp only [List.map_map]
  refine ⟨rfl, rfl, ?_, ?_⟩
  · refine List.map_congr_left fun r _ => ?_
    simp only [Function.comp, scaleRow]
    cases r.trend <;> simp
  · rw [List.filter_map, List.length_map]
    rfl

theorem correctedAt_scaled (c : ℚ) (o n : List ℚ) (p : Nat) : correctedAt (scaled c o) (scaled c n) p = c * correctedAt o n p := by
  unfold correctedAt
  rw [scaled_getD, scaled_getD, scaled_getD]
  split
  · rfl
  · ring

theorem mergeRows_scaled (hc : 0 < c) (rows drows : List Row) (newE newT : List ℚ) :
    mergeRows (rows.map (scaleRow c)) (drows.map (scaleRow c)) (scaled c newE) (scaled c newT) = (mergeRows rows drows newE newT).map (scaleRow c) := by
  obtain ⟨-, v2, v3, -⟩ := scaled_rows c rows
  unfold mergeRows
  dsimp only
  rw [v2, v3]
  rw [List.zip_map, List.zipIdx_map, List.map_map, List.map_map]
  refine List.map_congr_left fun x _ => ?_
  simp only [Function.comp, Prod.map, id, correctedAt_scaled]
  change (if (!x.1.1.anom && x.1.2.anom) = true then _ else _) = _
  split
  · simp only [mergedRow, scaleRow, mul_lt_mul_iff_right₀ hc, mul_le_mul_iff_right₀ hc]
    congr 1
    simp only [Option.isSome_map]
    split <;> rfl
  · rfl

theorem mergeWithDelta_scaled {E : Env} (hc : 0 < c) (hS : Scale E c S) (rows : List Row) (series : List ℚ) (ratio : ℚ) (th : PyFloat) (last : Bool)
    (hR : ∀ k ds, shouldIncludeDelta E series = .ok (some (k, ds)) → ∀ x, Transformed E ds x → S x) :
    mergeWithDelta E (rows.map (scaleRow c)) (scaled c series) ratio (fun s r => srDetection E s th r false last) =
      (mergeWithDelta E rows series ratio (fun s r => srDetection E s th r false last)).map fun l => l.map (scaleRow c) := by
  obtain ⟨v1, v2, v3, v4⟩ := scaled_rows c rows
  unfold mergeWithDelta
  have ho : shouldIncludeDelta E (scaled c series) = (shouldIncludeDelta E series).map fun o => o.map fun x => (x.1, scaled c x.2) :=
    deltaLoop_scaled hS _ _ _
  rw [ho]
  cases hd : shouldIncludeDelta E series with
  | error e => rfl
  | ok o =>
    simp only [Except.map, bind, Except.bind]
    match o with
    | none => rfl
    | some (0, ds) => rfl
    | some (k + 1, ds) =>
      have hR' := hR _ _ hd
      simp only [Option.map_some, scaled_length, v1, v4, srDetection_scaled hc hS _ _ _ _ hR']
      split
      · cases srDetection E ds th (ddiv ((max (dmul ds.length ratio).floor.toNat 1 - (rows.filter (·.anom)).length : Nat) : ℚ) ds.length) false last with
        | error e => rfl
        | ok x =>
          obtain ⟨drows, md⟩ := x
          obtain ⟨-, w2, w3, -⟩ := scaled_rows c drows
          simp only [Except.map, w2, w3, undelta_scaled]
          cases undelta (k + 1) (rows.map (·.value)) (drows.map (·.expected)) with
          | error e => rfl
          | ok newE =>
            simp only
            cases undelta (k + 1) (rows.map (·.value)) (drows.map fun r => r.trend.getD 0) with
            | error e => rfl
            | ok newT =>
              simp only [pure, Except.pure, mergeRows_scaled hc]
      · rfl

theorem run_scaled {E : Env} (hc : 0 < c) (hS : Scale E c S) {M M' : Model} (hth : M'.threshold = M.threshold) (hnt : M.needTrend = false)
    (hnt' : M'.needTrend = false) {s : List ℚ} {r : ℚ} {p : Nat} {last : Bool} (hp : ¬ 1 < p) (hs : shouldTriggerSr E M.gran M.interval s = true)
    (hs' : shouldTriggerSr E M'.gran M'.interval (scaled c s) = true) (hR : ∀ x, Transformed E s x → S x)
    (hR' : ∀ k ds, shouldIncludeDelta E s = .ok (some (k, ds)) → ∀ x, Transformed E ds x → S x) :
    M'.run E (scaled c s) r p last = (M.run E s r p last).map fun x => (x.1.map (scaleRow c), x.2) := by
  unfold Model.run
  rw [if_neg hp, if_pos hs, if_neg hp, if_pos hs', hth, hnt, hnt', srDetection_scaled hc hS _ _ _ _ hR]
  cases srDetection E s M.threshold r false last with
  | error e => rfl
  | ok x =>
    obtain ⟨rows, md⟩ := x
    simp only [Except.map, bind, Except.bind]
    rw [mergeWithDelta_scaled hc hS _ _ _ _ _ hR']
    cases mergeWithDelta E rows s r (fun s r => srDetection E s M.threshold r false last) <;> rfl

/-! ### the margins -/

/-- the same point, told in the other unit -/
structure ScaledOut (c : ℚ) (o o' : Out) : Prop where
  expected : o'.expected = c * o.expected
  upper : o'.upper = c * o.upper
  lower : o'.lower = c * o.lower
  pos : o'.pos = o.pos
  neg : o'.neg = o.neg
  anom : o'.anom = o.anom

theorem v1Margins_clear (sens : Int) (rows : List Row) (model : ModelType) : v1Margins sens (rows.map clearNear) model = v1Margins sens rows model := by
  have hf : (((rows.map clearNear).filter fun r => decide (r.score.getD 0 ≤ EPS)).map (·.value)) =
      ((rows.filter fun r => decide (r.score.getD 0 ≤ EPS)).map (·.value)) := by
    rw [List.filter_map, List.map_map]
    have h1 : ((fun r : Row => decide (r.score.getD 0 ≤ EPS)) ∘ clearNear) = fun r => decide (r.score.getD 0 ≤ EPS) := by
      funext r
      simp
    rw [h1]
    refine List.map_congr_left fun r _ => ?_
    simp
  unfold v1Margins srMargins adMargins
  split
  · dsimp only
    rw [hf, List.map_map]
    refine List.map_congr_left fun r _ => ?_
    simp only [Function.comp, clearNear_score, clearNear_value, clearNear_expected]
  · rw [List.map_map]
    refine List.map_congr_left fun r _ => ?_
    simp only [Function.comp, clearNear_expected]

theorem v1Margins_scaled (hc : 0 < c) (sens : Int) (rows : List Row) (model : ModelType) :
    v1Margins sens (rows.map (scaleRow c)) model = scaled c (v1Margins sens rows model) := by
  have hf : (((rows.map (scaleRow c)).filter fun r => decide (r.score.getD 0 ≤ EPS)).map (·.value)) =
      scaled c ((rows.filter fun r => decide (r.score.getD 0 ≤ EPS)).map (·.value)) := by
    unfold scaled
    rw [List.filter_map, List.map_map, List.map_map]
    rfl
  unfold v1Margins srMargins adMargins
  split
  · dsimp only
    rw [hf, npMax_scaled hc, npMin_scaled hc, scaled_length]
    conv_rhs => unfold scaled
    rw [List.map_map, List.map_map]
    refine List.map_congr_left fun r _ => ?_
    change (if r.score.getD 0 ≤ EPS then _ else |c * r.value - c * r.expected| / r.score.getD 0 * _) = c * (if r.score.getD 0 ≤ EPS then _ else _)
    rw [← mul_sub c r.value, abs_mul, abs_of_pos hc]
    by_cases h : r.score.getD 0 ≤ EPS
    · rw [if_pos h, if_pos h]
      split <;> ring
    · rw [if_neg h, if_neg h]
      ring
  · unfold scaled
    rw [List.map_map, List.map_map]
    refine List.map_congr_left fun r _ => ?_
    simp only [Function.comp, scaleRow, abs_mul, abs_of_pos hc]
    ring

theorem refinePoint_scaled (hc : 0 < c) (sens : Int) (r : Row) (ub lb : ℚ)
    (hn : |r.value - r.expected| < EPS ↔ c * |r.value - r.expected| < EPS) :
    ScaledOut c (refinePoint sens (clearNear r) ub lb) (refinePoint sens (clearNear (scaleRow c r)) (c * ub) (c * lb)) := by
  have hr : clearNear (scaleRow c r) = scaleRow c (clearNear r) := by
    unfold clearNear
    have : |(scaleRow c r).value - (scaleRow c r).expected| = c * |r.value - r.expected| := by
      simp only [scaleRow]
      rw [← mul_sub, abs_mul, abs_of_pos hc]
    rw [this]
    by_cases h : |r.value - r.expected| < EPS
    · rw [if_pos h, if_pos (hn.1 h)]
      rfl
    · rw [if_neg h, if_neg fun h' => h (hn.2 h')]
  rw [hr]
  generalize clearNear r = r
  unfold refinePoint
  simp only [scaleRow, mul_le_mul_iff_right₀ hc, mul_lt_mul_iff_right₀ hc]
  split
  · constructor <;> dsimp only <;> split_ifs <;> ring
  · constructor <;> dsimp only <;> split_ifs <;> ring

theorem marginsV1_scaled (hc : 0 < c) (sens : Int) (rows : List Row) (model : ModelType) {i : Nat} {r : Row} {o o' : Out} (hr : rows[i]? = some r)
    (hn : |r.value - r.expected| < EPS ↔ c * |r.value - r.expected| < EPS) (ho : (marginsV1 (rows.map clearNear) sens model)[i]? = some o)
    (ho' : (marginsV1 ((rows.map (scaleRow c)).map clearNear) sens model)[i]? = some o') : ScaledOut c o o' := by
  obtain ⟨hi, rfl⟩ := List.getElem?_eq_some_iff.1 hr
  obtain ⟨h1, rfl⟩ := List.getElem?_eq_some_iff.1 ho
  obtain ⟨h2, rfl⟩ := List.getElem?_eq_some_iff.1 ho'
  have l1 : (v1Margins sens rows model).length = (rows.map clearNear).length := by rw [length_v1Margins, List.length_map]
  have l2 : (scaled c (v1Margins sens rows model)).length = ((rows.map (scaleRow c)).map clearNear).length := by
    rw [scaled_length, length_v1Margins, List.length_map, List.length_map]
  simp only [marginsV1_eq, v1Margins_clear, v1Margins_scaled hc]
  rw [getElem_refineMargins l1 (by simpa using hi), getElem_refineMargins l2 (by simpa using hi)]
  have e1 : ((rows.map clearNear).map (·.value)) = rows.map (·.value) := by
    rw [List.map_map]
    exact List.map_congr_left fun r _ => clearNear_value r
  have e2 : ((rows.map clearNear).map (·.expected)) = rows.map (·.expected) := by
    rw [List.map_map]
    exact List.map_congr_left fun r _ => clearNear_expected r
  have e3 : (((rows.map (scaleRow c)).map clearNear).map (·.value)) = scaled c (rows.map (·.value)) := by
    rw [← (scaled_rows c rows).1, List.map_map]
    exact List.map_congr_left fun r _ => clearNear_value r
  have e4 : (((rows.map (scaleRow c)).map clearNear).map (·.expected)) = scaled c (rows.map (·.expected)) := by
    rw [← (scaled_rows c rows).2.1, List.map_map]
    exact List.map_congr_left fun r _ => clearNear_expected r
  have e5 : List.zipWith (fun a b : ℚ => a - b) (scaled c (rows.map (·.expected))) (scaled c (v1Margins sens rows model)) =
      scaled c (List.zipWith (fun a b : ℚ => a - b) (rows.map (·.expected)) (v1Margins sens rows model)) := by
    unfold scaled
    rw [List.zipWith_map, List.map_zipWith]
    simp only [mul_sub]
  rw [e1, e2, e3, e4, e5, npMax_scaled hc, npMax_scaled hc, npMax_scaled hc, npMin_scaled hc, npMin_scaled hc]
  simp only [List.getElem_map, clearNear_expected]
  have hg : (scaled c (v1Margins sens rows model))[i]'(by rw [l2]; simpa using hi) = c * (v1Margins sens rows model)[i]'(by rw [l1]; simpa using hi) := by
    simp [scaled]
  rw [hg, show (scaleRow c rows[i]).expected = c * rows[i].expected from rfl, ← mul_add, ← mul_sub, ← mul_max_of_nonneg _ _ hc.le,
    ← mul_min_of_nonneg _ _ hc.le, ← mul_min_of_nonneg _ _ hc.le, ← mul_max_of_nonneg _ _ hc.le, ← mul_min_of_nonneg _ _ hc.le]
  exact refinePoint_scaled hc sens _ _ _ hn

/-! ### the calls -/

namespace Spec

/-- two data frames with the same timestamps; the values of the second are those of the first, multiplied by `c` -/
def ScaledData (parse : String → Option PyFloat) (c : ℚ) : DataArg → DataArg → Prop
  | .frame hasTs hasValue rows, .frame hasTs' hasValue' rows' => hasTs' = hasTs ∧ hasValue' = hasValue ∧ rows'.map (·.1) = rows.map (·.1) ∧
      ∃ l : List ℚ, l.length = rows.length ∧ (∀ i q, l[i]? = some q → RowValue parse rows i q ∧ RowValue parse rows' i (c * q))
  | _, _ => False

/-- The distance of each value from the expected value that is reported for it is below `1e-8` in both units or in neither. The items tell of the last rows. -/
def SameSide (parse : String → Option PyFloat) (c : ℚ) : DataArg → List Item → Prop
  | .frame _ _ rows, items => ∀ (j : Nat) (a : Item) (q : ℚ), items[j]? = some a → RowValue parse rows (j + (rows.length - items.length)) q →
      (|q - a.expected| < 1 / 10 ^ 8 ↔ c * |q - a.expected| < 1 / 10 ^ 8)
  | _, _ => False

/-- two items about the same point: the second tells of the first in the other unit -/
structure ScaledItem (c : ℚ) (a b : Item) : Prop where
  timestamp : b.timestamp = a.timestamp
  expected : b.expected = c * a.expected
  upper : b.upper = c * a.upper
  lower : b.lower = c * a.lower
  pos : b.pos = a.pos
  neg : b.neg = a.neg
  anom : b.anom = a.anom
  period : b.period = a.period
  suggested : b.suggested = a.suggested

end Spec

theorem scaled_traces {E : Env} (hc : 0 < c) (hS : Scale E c S) {d : Detector} {data data' : DataArg} {params : Params} {n : Int} {m : DetectType}
    (hq : SrRequest E data params n) (hq' : Scattered E.parseFloat E.gaussC data') (hb : VersionOk (params "boundaryVersion") .V1)
    (ht : ScaledData E.parseFloat c data data') (hR : Regular E S data) (hm : InMode d params m) {items items' : List Item}
    (T : Trace E d data params items) (T' : Trace E d data' params items') :
    T'.frame0 = T.frame0.map (scaleRow c) ∧ T'.model = T.model ∧ T'.period = T.period ∧
      rowStamps T'.hasTs T'.rows = rowStamps T.hasTs T.rows ∧ paramSens T'.after = paramSens T.after ∧
      T'.mp.granularity = T.mp.granularity := by
  obtain ⟨s1, p1, q1, r1⟩ := T.sr hq
  obtain ⟨s2, p2, q2, r2⟩ := T'.sr ⟨hq.period, hq.small, hq.fine, hq.unfilled, hq'⟩
  have ht0 := ht
  rw [T.isFrame, T'.isFrame] at ht0
  obtain ⟨t1, t2, t3, l, l1, l2⟩ := ht0
  have hlen : T'.rows.length = T.rows.length := by simpa using congrArg List.length t3
  have hv : T.M.values = l := values_eq T.validated.values (mapM_finite_fin _) l1 fun i q h => (l2 i q h).1
  have hv' : T'.M.values = scaled c l := values_eq T'.validated.values (mapM_finite_fin _) (by rw [scaled_length, hlen, l1]) fun i q h => by
    unfold scaled at h
    rw [List.getElem?_map] at h
    cases h4 : l[i]? with
    | none => rw [h4] at h; cases h
    | some x =>
      rw [h4] at h
      cases h
      exact (l2 i x h4).2
  have hth : T'.M.threshold = T.M.threshold := by
    rw [T.configured.threshold, T'.configured.threshold]
    have a := T.parsed.threshold
    have b := T'.parsed.threshold
    rcases a with ⟨a1, a2⟩ | ⟨f, a1, a2⟩ <;> rcases b with ⟨b1, b2⟩ | ⟨g, b1, b2⟩ <;> rw [a1] at b1 <;> cases b1 <;> rw [a2, b2]
  have hnt : ∀ {data : DataArg} {items : List Item} (T : Trace E d data params items), T.M.needTrend = false := by
    intro data items T
    rw [T.configured.trend]
    obtain ⟨b, x1, x2, -⟩ := T.parsed.boundary
    have := parsed_version T.parsed hb
    unfold paramBoundary at this
    rw [x1] at this
    have this : b = .V1 := this
    rw [x2, this]
    rfl
  have hgr : T'.mp.granularity = T.mp.granularity := by
    rcases T.parsed.gran with ⟨a1, a2⟩ | ⟨f, a1, a2⟩ <;> rcases T'.parsed.gran with ⟨b1, b2⟩ | ⟨g, b1, b2⟩ <;> rw [a1] at b1 <;> cases b1
    · rw [a2, b2]
    · exact Option.some.inj (b2.symm.trans a2)
  have hra : T'.ratio = T.ratio := by
    have h1 := T.selected.finite
    have h2 := T'.selected.finite
    have e : T'.mp.ratio = T.mp.ratio := by
      rcases T.parsed.ratio with ⟨a1, a2⟩ | ⟨f, a1, -, -, a2⟩ <;> rcases T'.parsed.ratio with ⟨b1, b2⟩ | ⟨g, b1, -, -, b2⟩ <;>
        rw [a1] at b1 <;> cases b1 <;> rw [a2, b2]
    have e2 : T'.M.majority = T.M.majority := by
      rw [T.configured.majority, T'.configured.majority, hv, hv', hS.histogram]
    have e3 : T'.M.ratio = T.M.ratio := by rw [T.configured.ratio, T'.configured.ratio, e]
    rw [T'.mode_eq hm] at h2
    rw [T.mode_eq hm] at h1
    have : T'.M.maxRatio (isLatest (.dtype m)) = T.M.maxRatio (isLatest (.dtype m)) := by
      unfold Model.maxRatio
      rw [e2, e3]
    rw [this, h1] at h2
    exact (PyFloat.fin.inj h2).symm
  rw [T.mode_eq hm, hv] at r1
  rw [T'.mode_eq hm, hra, hv', q2, ← q1] at r2
  rw [hv] at s1
  rw [hv'] at s2
  obtain ⟨g1, g2⟩ := hR l (by rw [T.isFrame]; exact ⟨l1, fun i q h => (l2 i q h).1⟩)
  have k1 := run_scaled hc hS hth (hnt T) (hnt T') (r := T.ratio) (last := isLatest (.dtype m)) p1 s1 s2 g1 g2
  rw [r1, r2] at k1
  have k1 := Except.ok.inj k1
  simp only [Prod.mk.injEq] at k1
  refine ⟨k1.1, k1.2, q2.trans q1.symm, ?_, ?_, hgr⟩
  · unfold rowStamps
    rw [t1, t3, hlen]
  · unfold paramSens
    rcases T.parsed.sensitivity with ⟨a1, a2⟩ | ⟨v, i, a1, -, -, -, a2⟩ <;> rcases T'.parsed.sensitivity with ⟨b1, b2⟩ | ⟨w, j, b1, -, -, -, b2⟩ <;>
      rw [a1] at b1 <;> cases b1 <;> rw [a2, b2]

theorem marginsV1_len (rows : List Row) (sens : Int) (model : ModelType) : (marginsV1 rows sens model).length = rows.length := by
  rw [marginsV1_eq, length_refineMargins (length_v1Margins ..)]

theorem marginsV1_expected {rows : List Row} {sens : Int} {model : ModelType} {i : Nat} {o : Out} (h : (marginsV1 (rows.map clearNear) sens model)[i]? = some o) :
    ∃ r, rows[i]? = some r ∧ o.expected = r.expected := by
  obtain ⟨h1, rfl⟩ := List.getElem?_eq_some_iff.1 h
  have hi : i < rows.length := by simpa [marginsV1_len] using h1
  refine ⟨rows[i], List.getElem?_eq_getElem hi, ?_⟩
  have := (List.forall₂_iff_get.1 (marginsV1_told (rows.map clearNear) model sens)).2 i (by simpa using hi) h1
  have := this.1
  simpa using this

theorem finish_scaled (hc : 0 < c) {m : DetectType} {stamps : List PyVal} {rows : List Row} {p : Nat} {model : ModelType} {sens : Int} {g : Granularity}
    {items items' : List Item} (h : finish (.dtype m) stamps (rows.map clearNear) p model sens .V1 g = .ok items)
    (h' : finish (.dtype m) stamps ((rows.map (scaleRow c)).map clearNear) p model sens .V1 g = .ok items')
    (hn : ∀ (j : Nat) (a : Item) (r : Row), items[j]? = some a → rows[j + (rows.length - items.length)]? = some r →
      (|r.value - a.expected| < EPS ↔ c * |r.value - a.expected| < EPS)) : List.Forall₂ (ScaledItem c) items items' := by
  unfold finish at h h'
  split at h
  · cases h
  rename_i hl
  have hl := not_not.1 hl
  rw [List.length_map] at hl
  rw [if_neg (by rw [List.length_map, List.length_map, hl]; exact fun h => h rfl)] at h'
  cases m with
  | ENTIRE =>
    simp only [getMargins, if_true] at h h'
    have f1 := epure_ok.1 h
    have f2 := epure_ok.1 h'
    have l1 := marginsV1_len (rows.map clearNear) sens model
    have l2 := marginsV1_len ((rows.map (scaleRow c)).map clearNear) sens model
    rw [List.length_map] at l1
    rw [List.length_map, List.length_map] at l2
    have hlen : items.length = rows.length := by rw [← f1, List.length_zipWith, l1, hl, min_self]
    have hlen' : items'.length = rows.length := by rw [← f2, List.length_zipWith, l2, hl, min_self]
    refine List.forall₂_iff_get.2 ⟨by omega, fun i i1 i2 => ?_⟩
    rw [hlen] at i1
    obtain ⟨ts, hs⟩ : ∃ ts, stamps[i]? = some ts := ⟨_, List.getElem?_eq_getElem (by omega)⟩
    obtain ⟨o, ho⟩ : ∃ o, (marginsV1 (rows.map clearNear) sens model)[i]? = some o := ⟨_, List.getElem?_eq_getElem (by omega)⟩
    obtain ⟨o', ho'⟩ : ∃ o, (marginsV1 ((rows.map (scaleRow c)).map clearNear) sens model)[i]? = some o := ⟨_, List.getElem?_eq_getElem (by omega)⟩
    obtain ⟨r, hr, he⟩ := marginsV1_expected ho
    have hi : items[i]? = some (mkItem ts o p none) := by
      rw [← f1, List.getElem?_zipWith, hs, ho]
    have hi' : items'[i]? = some (mkItem ts o' p none) := by
      rw [← f2, List.getElem?_zipWith, hs, ho']
    have hk := hn i _ r hi (by rw [hlen, Nat.sub_self]; exact hr)
    have hx : (mkItem ts o p none).expected = r.expected := he
    rw [hx] at hk
    have key := marginsV1_scaled hc sens rows model hr hk ho ho'
    rw [List.getElem?_eq_getElem (by omega)] at hi hi'
    simp only [List.get_eq_getElem]
    rw [Option.some.inj hi, Option.some.inj hi']
    exact ⟨rfl, key.expected, key.upper, key.lower, key.pos, key.neg, key.anom, rfl, rfl⟩
  | LATEST =>
    simp only [getMarginsLast, if_true] at h h'
    obtain ⟨o, o1, h⟩ := ebind_ok.1 h
    obtain ⟨o', o2, h'⟩ := ebind_ok.1 h'
    split at o1
    swap
    · cases o1
    rename_i w hw
    cases o1
    split at o2
    swap
    · cases o2
    rename_i w' hw'
    cases o2
    split at h
    swap
    · cases h
    rename_i ts hts
    rw [hts] at h'
    have f1 := epure_ok.1 h
    have f2 := epure_ok.1 h'
    rw [List.getLast?_eq_getElem?, marginsV1_len, List.length_map] at hw
    rw [List.getLast?_eq_getElem?, marginsV1_len, List.length_map, List.length_map] at hw'
    obtain ⟨r, hr, he⟩ := marginsV1_expected hw
    have hk := hn 0 (mkItem ts o p (some (suggestedWindow p g))) r (by rw [← f1]; rfl) (by rw [← f1, Nat.zero_add]; exact hr)
    have hx : (mkItem ts o p (some (suggestedWindow p g))).expected = r.expected := he
    rw [hx] at hk
    have key := marginsV1_scaled hc sens rows model hr hk hw hw'
    rw [← f1, ← f2]
    exact .cons ⟨rfl, key.expected, key.upper, key.lower, key.pos, key.neg, key.anom, rfl, rfl⟩ .nil

/-- **C135** The unit of the values. Two data frames have the same timestamps and the values of the second are `c > 0` times those of the first; the request
asks for V1 boundaries and is one that the spectral residual model answers, whose transform is not sensitive to the unit for this series. If both are answered, and no value is nearer than `1e-8` to its expected value
in one unit only, then the same points are reported as anomalies, with the same directions, period and suggested window, and the expected values and both
margins are multiplied by `c`. -/
theorem C135_unit {E : Env} (hE : E.WF) {c : ℚ} (hc : 0 < c) {S : List ℚ → Prop} (hS : Scale E c S) {W : Wild} {d : Detector} {data data' : DataArg} {params : Params}
    (hno : params "indices" = none) (hf : FiniteFill E data params) (hf' : FiniteFill E data' params) {m : DetectType} (hm : InMode d params m)
    {n : Int} (hq : SrRequest E data params n) (hq' : Scattered E.parseFloat E.gaussC data') (hb : VersionOk (params "boundaryVersion") .V1)
    (ht : ScaledData E.parseFloat c data data') (hR : Regular E S data) {items items' : List Item} (h : (predict E W d data params).outcome = .ok items)
    (h' : (predict E W d data' params).outcome = .ok items') (hn : SameSide E.parseFloat c data items) :
    List.Forall₂ (ScaledItem c) items items' := by
  obtain ⟨T⟩ := predict_trace hE hno hf h
  obtain ⟨T'⟩ := predict_trace hE hno hf' h'
  obtain ⟨e1, e2, e3, e4, e5, e6⟩ := scaled_traces hc hS hq hq' hb ht hR hm T T'
  have f1 := T.finished
  have f2 := T'.finished
  rw [T.mode_eq hm, parsed_version T.parsed hb] at f1
  rw [T'.mode_eq hm, parsed_version T'.parsed hb, e1, e2, e3, e4, e5, e6] at f2
  refine finish_scaled hc f1 f2 fun j a r ha hr => ?_
  rw [T.isFrame] at hn
  have h5 := (T.frameOk hE).values
  have ht0 := ht
  rw [T.isFrame, T'.isFrame] at ht0
  obtain ⟨-, -, -, l, m1, m2⟩ := ht0
  have hv : T.M.values = l := values_eq T.validated.values (mapM_finite_fin _) m1 fun i q h => (m2 i q h).1
  have hl : T.frame0.length = T.rows.length := by
    have := congrArg List.length h5
    rw [hv, List.length_map] at this
    omega
  rw [hl] at hr
  have hlv : l[j + (T.rows.length - items.length)]? = some r.value := by
    rw [← hv, ← h5, List.getElem?_map, hr]
    rfl
  have := hn j a r.value ha (m2 _ _ hlv).1
  have e : EPS = 1 / 10 ^ 8 := by
    unfold EPS
    norm_num
  rw [e]
  exact this

/-! ### concrete cases -/

/-- a function with `f (1000 ^ 2 * x) = 1000 * f x` that stands for the square root -/
def milliRoot (x : ℚ) : ℚ := if x ≤ 0 then 0 else 1000 ^ Int.log 1000000 x

theorem milliRoot_scale (x : ℚ) : milliRoot (1000 ^ 2 * x) = 1000 * milliRoot x := by
  unfold milliRoot
  by_cases hx : x ≤ 0
  · rw [if_pos hx, if_pos (by linarith), mul_zero]
  · have hx := not_le.1 hx
    rw [if_neg (by linarith), if_neg (by linarith)]
    have h0 : (0 : ℚ) < 1000 ^ 2 * x := by linarith
    have hb : (1 : ℕ) < 1000000 := by norm_num
    have hlog : Int.log 1000000 (1000 ^ 2 * x) = Int.log 1000000 x + 1 := by
      apply le_antisymm
      · rw [← Int.lt_add_one_iff, ← Int.lt_zpow_iff_log_lt hb h0, zpow_add₀ (by norm_num), zpow_one]
        have := Int.lt_zpow_succ_log_self hb x
        push_cast at this ⊢
        linarith
      · rw [← Int.zpow_le_iff_le_log hb h0, zpow_add₀ (by norm_num), zpow_one]
        have := Int.zpow_log_le_self hb hx
        push_cast at this ⊢
        linarith
    rw [hlog, zpow_add₀ (by norm_num), zpow_one, mul_comm]

/-- a small library that does not see the difference between metres and millimetres -/
def scaleEnv : Env := { demoEnv with
  quantile := fun l q => q * npMax l + (1 - q) * npMin l
  sqrt := milliRoot
  srTransform := fun l => l.map fun x => |x| / npMax (l.map fun y => |y|) + 1 }

theorem scaleEnv_WF : scaleEnv.WF := { demoEnv_WF with
  sqrt_nonneg := fun x => by
    simp only [scaleEnv, milliRoot]
    split
    · exact le_rfl
    · positivity
  sqrt_zero := fun x hx => by
    simp only [scaleEnv, milliRoot]
    split
    · rename_i h
      simp [le_antisymm h hx]
    · rename_i h
      have h1 : x ≠ 0 := fun e => h e.le
      have h2 : (1000 : ℚ) ^ Int.log 1000000 x ≠ 0 := by positivity
      simp only [h1, h2]
  sr_len := fun l => by simp [scaleEnv]
  sr_nonneg := fun l x hx => by
    simp only [scaleEnv, List.mem_map] at hx
    obtain ⟨y, hy, rfl⟩ := hx
    have h1 : |y| ≤ npMax (l.map fun y => |y|) := le_npMax (List.mem_map.2 ⟨y, hy, rfl⟩)
    have h2 : 0 ≤ npMax (l.map fun y => |y|) := (abs_nonneg y).trans h1
    positivity }

theorem scaleEnv_scale : Scale scaleEnv 1000 fun _ => True where
  transform := fun l _ => by
    have h : (scaled 1000 l).map (fun y => |y|) = scaled 1000 (l.map fun y => |y|) := by
      unfold scaled
      rw [List.map_map, List.map_map]
      refine List.map_congr_left fun x _ => ?_
      simp only [Function.comp, abs_mul]
      norm_num
    simp only [scaleEnv]
    rw [h, npMax_scaled (by norm_num)]
    unfold scaled
    rw [List.map_map]
    refine List.map_congr_left fun x _ => ?_
    simp only [Function.comp, abs_mul]
    rw [show |(1000 : ℚ)| = 1000 by norm_num, mul_div_mul_left _ _ (by norm_num)]
  quantile := fun l q => by
    simp only [scaleEnv]
    rw [npMax_scaled (by norm_num), npMin_scaled (by norm_num)]
    ring
  stationary := fun _ => rfl
  root := milliRoot_scale
  histogram := fun _ => rfl

/-- rows with the given values, one per `step` seconds -/
def metreRows (vs : List ℚ) (step : Int) : List (PyVal × PyVal) := vs.zipIdx.map fun x => (.int (x.2 * step), .float (.fin x.1))

theorem unitRows_value {vs : List ℚ} {step : Int} {i : Nat} {q : ℚ} (h : vs[i]? = some q) (parse : String → Option PyFloat) :
    RowValue parse (metreRows vs step) i q := by
  refine ⟨(.int (i * step), .float (.fin q)), ?_, .float q⟩
  unfold metreRows
  rw [List.getElem?_map, List.getElem?_zipIdx, h]
  simp

theorem unitRows_scattered {E : Env} {vs : List ℚ} (hv : vs ≠ []) (h : 1 / 10 ^ 8 ≤ E.mad vs) (step : Int) :
    Scattered E.parseFloat E.gaussC (.frame true true (metreRows vs step)) :=
  ⟨vs, npMedian vs, npMedian (vs.map fun x => |x - npMedian vs|), by simp [metreRows], fun _ _ h => unitRows_value h _, isMedian_npMedian hv,
    isMedian_npMedian (by simpa using hv), h⟩

theorem unitRows_scaled (parse : String → Option PyFloat) (c : ℚ) (vs : List ℚ) (step : Int) :
    ScaledData parse c (.frame true true (metreRows vs step)) (.frame true true (metreRows (scaled c vs) step)) := by
  refine ⟨rfl, rfl, ?_, vs, by simp [metreRows], fun i q h => ⟨unitRows_value h _, unitRows_value ?_ _⟩⟩
  · unfold metreRows scaled
    rw [List.zipIdx_map, List.map_map, List.map_map, List.map_map]
    rfl
  · unfold scaled
    rw [List.getElem?_map, h]
    rfl

/-- heights in metres, around zero, with three spikes -/
def metres : List ℚ := [0, 1/100, 0, 1/100, 0, 1/100, 0, 1/100, 0, 1/100, 9/100, 1/100, 0, 7/100]

/-- a request about them, with V1 boundaries -/
def metreParams : Params := optParams "minutely" 1 [("threshold", .float (.fin 0))]

/-- the same with V2 boundaries and `sensitivity` 60 -/
def metreParams2 : Params := optParams "minutely" 1 [("threshold", .float (.fin 0)), ("boundaryVersion", .str "V2"), ("sensitivity", .int 60)]

/-- **C135** (V2 boundaries depend on the unit): there is a library to which the unit makes no difference, and a series of 14 values in which three anomalies
are reported when it is given in millimetres and none when it is given in metres, all else being the same. -/
theorem C135_boundary_unit : ∃ (E : Env) (l : List ℚ), E.WF ∧ Scale E 1000 (fun _ => True) ∧ Scattered E.parseFloat E.gaussC (.frame true true (metreRows l 60)) ∧
    Scattered E.parseFloat E.gaussC (.frame true true (metreRows (scaled 1000 l) 60)) ∧
    flaggedIn (predict E demoWild entireDetector (.frame true true (metreRows l 60)) metreParams2) = some (List.replicate 14 false) ∧
    flaggedIn (predict E demoWild entireDetector (.frame true true (metreRows (scaled 1000 l) 60)) metreParams2) =
      some (List.replicate 10 false ++ [true, false, true, true]) := by
  refine ⟨scaleEnv, metres, scaleEnv_WF, scaleEnv_scale, unitRows_scattered (by decide) ?_ _, unitRows_scattered (by decide) ?_ _, ?_, ?_⟩ <;> decide +kernel

/-- **C135** (very small numbers): with V1 boundaries too there is a series in which three anomalies are reported in one unit and none in a unit that is a
thousand times larger. -/
theorem C135_tiny : ∃ (E : Env) (l : List ℚ), E.WF ∧ Scale E 1000 (fun _ => True) ∧
    flaggedIn (predict E demoWild entireDetector (.frame true true (metreRows l 60)) metreParams) = some (List.replicate 14 false) ∧
    flaggedIn (predict E demoWild entireDetector (.frame true true (metreRows (scaled 1000 l) 60)) metreParams) =
      some (List.replicate 10 false ++ [true, false, true, true]) := by
  refine ⟨scaleEnv, scaled (1 / 10 ^ 8) metres, scaleEnv_WF, scaleEnv_scale, ?_, ?_⟩ <;> decide +kernel

/-- the distances of the last values from the expected ones are on the same side of `1e-8` in both units -/
def sidesAgree (c : ℚ) (vs : List ℚ) (r : CallResult) : Bool :=
  match r.outcome with
  | .ok items => (List.range items.length).all fun j => match vs[j + (vs.length - items.length)]?, items[j]? with
    | some q, some a => decide (|q - a.expected| < 1 / 10 ^ 8 ↔ c * |q - a.expected| < 1 / 10 ^ 8)
    | _, _ => true
  | .error _ => true

theorem sameSide_of {c : ℚ} {vs : List ℚ} {step : Int} {r : CallResult} {items : List Item} (h : sidesAgree c vs r = true) (hr : r.outcome = .ok items)
    (parse : String → Option PyFloat) : SameSide parse c (.frame true true (metreRows vs step)) items := by
  intro j a q ha hq
  have hlen : (metreRows vs step).length = vs.length := by simp [metreRows]
  rw [hlen] at hq
  unfold sidesAgree at h
  rw [hr] at h
  obtain ⟨hj, -⟩ := List.getElem?_eq_some_iff.1 ha
  have h1 := List.all_eq_true.1 h j (List.mem_range.2 hj)
  rw [ha] at h1
  cases hv : vs[j + (vs.length - items.length)]? with
  | none =>
    obtain ⟨v, e, -⟩ := hq
    have := List.getElem?_eq_none_iff.1 hv
    rw [List.getElem?_eq_none (by simpa [metreRows] using this)] at e
    cases e
  | some x =>
    rw [hv] at h1
    obtain ⟨v, e, r1⟩ := hq
    obtain ⟨w, e', r2⟩ := unitRows_value (step := step) hv parse
    rw [e] at e'
    cases e'
    rw [reads_unique r1 r2]
    exact of_decide_eq_true h1

theorem unit_request (E : Env) (hs : Scattered E.parseFloat E.gaussC (.frame true true (metreRows metres 60))) :
    SrRequest E (.frame true true (metreRows metres 60)) metreParams 1 :=
  ⟨⟨.int 1, by rfl, .int 1⟩, by decide, .inl ⟨by rfl, fun v i h => by cases h⟩, ⟨.inl (by rfl), .inl (by rfl)⟩, hs⟩

theorem unit_fill (E : Env) (data : DataArg) : FiniteFill E data metreParams := .inl ⟨(by intro h; cases h), fun f h => by cases h⟩

/-- `C135_unit` in ENTIRE mode: metres and millimetres, with three anomalies -/
example : ∃ items items' : List Item,
    (predict scaleEnv demoWild entireDetector (.frame true true (metreRows metres 60)) metreParams).outcome = .ok items ∧
    (predict scaleEnv demoWild entireDetector (.frame true true (metreRows (scaled 1000 metres) 60)) metreParams).outcome = .ok items' ∧
    items.map (·.anom) = List.replicate 10 false ++ [true, false, true, true] ∧ List.Forall₂ (ScaledItem 1000) items items' := by
  obtain ⟨items, h1, h2⟩ := answered_of_flags (r := predict scaleEnv demoWild entireDetector (.frame true true (metreRows metres 60)) metreParams)
    (l := List.replicate 10 false ++ [true, false, true, true]) (by decide +kernel)
  obtain ⟨items', h3, -⟩ := answered_of_flags (r := predict scaleEnv demoWild entireDetector (.frame true true (metreRows (scaled 1000 metres) 60)) metreParams)
    (l := List.replicate 10 false ++ [true, false, true, true]) (by decide +kernel)
  exact ⟨items, items', h1, h3, h2, C135_unit scaleEnv_WF (by norm_num) scaleEnv_scale (by rfl) (unit_fill _ _) (unit_fill _ _) (.inl (by rfl))
    (unit_request _ (unitRows_scattered (by decide) (by decide +kernel) _)) (unitRows_scattered (by decide) (by decide +kernel) _)
    (.inl ⟨.inl (by rfl), rfl⟩) (unitRows_scaled _ _ _ _) (fun _ _ => ⟨fun _ _ => trivial, fun _ _ _ _ _ => trivial⟩) h1 h3 (sameSide_of (by decide +kernel) h1 _)⟩

/-- `C135_unit` in LATEST mode: the last height is an anomaly in both units -/
example : ∃ items items' : List Item,
    (predict scaleEnv demoWild latestDetector (.frame true true (metreRows metres 60)) metreParams).outcome = .ok items ∧
    (predict scaleEnv demoWild latestDetector (.frame true true (metreRows (scaled 1000 metres) 60)) metreParams).outcome = .ok items' ∧
    items.map (·.anom) = [true] ∧ List.Forall₂ (ScaledItem 1000) items items' := by
  obtain ⟨items, h1, h2⟩ := answered_of_flags (r := predict scaleEnv demoWild latestDetector (.frame true true (metreRows metres 60)) metreParams)
    (l := [true]) (by decide +kernel)
  obtain ⟨items', h3, -⟩ := answered_of_flags (r := predict scaleEnv demoWild latestDetector (.frame true true (metreRows (scaled 1000 metres) 60)) metreParams)
    (l := [true]) (by decide +kernel)
  exact ⟨items, items', h1, h3, h2, C135_unit scaleEnv_WF (by norm_num) scaleEnv_scale (by rfl) (unit_fill _ _) (unit_fill _ _) (.inl (by rfl))
    (unit_request _ (unitRows_scattered (by decide) (by decide +kernel) _)) (unitRows_scattered (by decide) (by decide +kernel) _)
    (.inl ⟨.inl (by rfl), rfl⟩) (unitRows_scaled _ _ _ _) (fun _ _ => ⟨fun _ _ => trivial, fun _ _ _ _ _ => trivial⟩) h1 h3 (sameSide_of (by decide +kernel) h1 _)⟩

end Verif
