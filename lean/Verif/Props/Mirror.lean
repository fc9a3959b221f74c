import Verif.Props.Ratio

/-!
# A series turned upside down (C133)

What the spectral residual model answers for a series and for the same series with every sign changed.
-/

namespace Verif

open Spec

namespace Spec

/-- every sign changed -/
def turned (l : List ℚ) : List ℚ := l.map fun x => -x

/-- What is assumed of the numerical library: changing every sign of the input changes every sign of a quantile (taken from the other end) and of a
fitted trend, and neither the spectral residual nor the tests for stationarity see it. -/
structure Mirror (E : Env) : Prop where
  transform : ∀ l, E.srTransform (turned l) = E.srTransform l
  quantile : ∀ l q, E.quantile (turned l) q = -E.quantile l (1 - q)
  stationary : ∀ l, E.stationary (turned l) = E.stationary l
  trend : ∀ l p, E.fitTrend (turned l) p = (E.fitTrend l p).map turned

end Spec

/-! ### arithmetic -/

theorem turned_getD (l : List ℚ) (i : Nat) : (turned l).getD i 0 = -l.getD i 0 := by
  unfold turned
  rw [List.getD_eq_getElem?_getD, List.getD_eq_getElem?_getD, List.getElem?_map]
  cases l[i]? <;> simp

theorem turned_length (l : List ℚ) : (turned l).length = l.length := List.length_map ..

theorem turned_sum (l : List ℚ) : (turned l).sum = -l.sum := by
  induction l with
  | nil => rfl
  | cons a t ih =>
    have : turned (a :: t) = -a :: turned t := rfl
    rw [this, List.sum_cons, List.sum_cons, ih]
    ring

theorem npMean_turned (l : List ℚ) : npMean (turned l) = -npMean l := by
  unfold npMean
  rw [turned_sum, turned_length]
  ring

theorem isRank_turned {l : List ℚ} {k : Nat} {v : ℚ} (h : IsRank l k v) : IsRank (turned l) (l.length - 1 - k) (-v) := by
  obtain ⟨s, h1, h2, h3⟩ := h
  have hk := (List.getElem?_eq_some_iff.1 h3).1
  have hl := h1.length_eq
  refine ⟨(turned s).reverse, (List.reverse_perm _).trans (h1.map _), ?_, ?_⟩
  · rw [List.pairwise_reverse]
    exact List.pairwise_map.2 (h2.imp fun h => neg_le_neg h)
  · rw [List.getElem?_reverse (by rw [turned_length]; omega), turned_length, ← hl,
      show s.length - 1 - (s.length - 1 - k) = k by omega]
    unfold turned
    rw [List.getElem?_map, h3]
    rfl

theorem isMedian_turned {l : List ℚ} {m : ℚ} (h : IsMedian l m) : IsMedian (turned l) (-m) := by
  rcases h with ⟨h1, h⟩ | ⟨h1, a, b, ha, hb, rfl⟩
  · refine .inl ⟨by rwa [turned_length], ?_⟩
    have := isRank_turned h
    rw [turned_length]
    rwa [show l.length - 1 - l.length / 2 = l.length / 2 by omega] at this
  · have h0 : 0 < l.length := by
      obtain ⟨s, h2, -, h3⟩ := ha
      have := (List.getElem?_eq_some_iff.1 h3).1
      have := h2.length_eq
      omega
    refine .inr ⟨by rwa [turned_length], -b, -a, ?_, ?_, by ring⟩
    · have := isRank_turned hb
      rw [turned_length]
      rwa [show l.length - 1 - l.length / 2 = l.length / 2 - 1 by omega] at this
    · have := isRank_turned ha
      rw [turned_length]
      rwa [show l.length - 1 - (l.length / 2 - 1) = l.length / 2 by omega] at this

theorem npMedian_turned (l : List ℚ) : npMedian (turned l) = -npMedian l := by
  by_cases h : l = []
  · subst h
    decide +kernel
  · have h' : turned l ≠ [] := by simpa [turned] using h
    exact (isMedian_npMedian h').unique (isMedian_turned (isMedian_npMedian h))

theorem npMax_turned (l : List ℚ) : npMax (turned l) = -npMin l := by
  by_cases h : l = []
  · subst h
    rfl
  have h' : turned l ≠ [] := by simpa [turned] using h
  apply le_antisymm
  · refine npMax_le h' fun x hx => ?_
    obtain ⟨y, hy, rfl⟩ := List.mem_map.1 hx
    exact neg_le_neg (npMin_le hy)
  · exact le_npMax (List.mem_map.2 ⟨_, npMin_mem h, rfl⟩)

theorem turned_turned (l : List ℚ) : turned (turned l) = l := by
  unfold turned
  simp

theorem npMin_turned (l : List ℚ) : npMin (turned l) = -npMax l := by
  have := npMax_turned (turned l)
  rw [turned_turned] at this
  rw [this]
  ring

theorem cumsumFrom_turned (l : List ℚ) (s : ℚ) : cumsumFrom (-s) (turned l) = turned (cumsumFrom s l) := by
  induction l generalizing s with
  | nil => rfl
  | cons a t ih =>
    have e : turned (a :: t) = -a :: turned t := rfl
    rw [e]
    simp only [cumsumFrom]
    rw [show -s + -a = -(s + a) by ring, ih]
    rfl

theorem cumsum_turned (l : List ℚ) : cumsum (turned l) = turned (cumsum l) := by
  have := cumsumFrom_turned l 0
  rwa [neg_zero] at this

theorem averageFilter_turned (l : List ℚ) (n : Nat) (b : Bool) : averageFilter (turned l) n b = turned (averageFilter l n b) := by
  unfold averageFilter
  dsimp only
  rw [turned_length, cumsum_turned]
  conv_rhs => unfold turned
  rw [List.map_map]
  refine List.map_congr_left fun i _ => ?_
  simp only [turned_getD, Function.comp]
  generalize (if l.length ≤ n then l.length else n) = m
  split
  · ring
  · split
    · rfl
    · split
      · ring
      · ring

/-! ### the scores -/

theorem predictNext_turned (l : List ℚ) : predictNext (turned l) = (predictNext l).map fun x => -x := by
  unfold predictNext
  dsimp only
  rw [turned_length]
  split
  · rfl
  · simp only [Except.map]
    congr 1
    rw [npMedian_turned]
    have h1 : (turned l).getLastD 0 = -l.getLastD 0 := by
      unfold turned
      rw [List.getLastD_eq_getLast?, List.getLastD_eq_getLast?, List.getLast?_map]
      cases l.getLast? <;> simp
    have h2 : ((turned l).dropLast.zipIdx).map (fun x => ((turned l).getLastD 0 - x.1) / ((l.length : ℚ) - 1 - x.2)) =
        turned ((l.dropLast.zipIdx).map fun x => (l.getLastD 0 - x.1) / ((l.length : ℚ) - 1 - x.2)) := by
      rw [h1]
      unfold turned
      rw [← List.map_dropLast, List.zipIdx_map, List.map_map, List.map_map]
      refine List.map_congr_left fun x _ => ?_
      simp only [Function.comp, Prod.map, id]
      ring
    rw [h2, turned_sum]
    ring

theorem aheadLoop_turned (lo hi : ℚ) (l : List ℚ) (k : Nat) (acc : List ℚ) :
    aheadLoop (-hi) (-lo) (turned l) k (turned acc) = turned (aheadLoop lo hi l k acc) := by
  induction l generalizing k acc with
  | nil => cases k <;> rfl
  | cons v t ih =>
    have e : turned (v :: t) = -v :: turned t := rfl
    rw [e]
    cases k with
    | zero => rfl
    | succ k =>
      simp only [aheadLoop]
      have hc : (-hi ≤ -v ∧ -v ≤ -lo) ↔ (lo ≤ v ∧ v ≤ hi) := by
        constructor <;> rintro ⟨h1, h2⟩ <;> constructor <;> linarith
      simp only [hc]
      split
      · rw [← ih]
        congr 1
        unfold turned
        rw [List.map_set]
      · exact ih _ _

theorem extendSeries_turned {E : Env} (hM : Mirror E) (l : List ℚ) :
    extendSeries E (turned l) true = (extendSeries E l true).map turned := by
  unfold extendSeries
  simp only [if_true]
  rw [hM.quantile, hM.quantile, hM.quantile]
  rw [show (1 : ℚ) - 3 / 4 = 1 / 4 by norm_num, show (1 : ℚ) - 1 / 4 = 3 / 4 by norm_num, show (1 : ℚ) - 1 / 2 = 1 / 2 by norm_num]
  have h := aheadLoop_turned (E.quantile l (1 / 4) - 3 / 2 * (E.quantile l (3 / 4) - E.quantile l (1 / 4)))
    (E.quantile l (3 / 4) + 3 / 2 * (E.quantile l (3 / 4) - E.quantile l (1 / 4))) l.reverse 6 (List.replicate 6 (E.quantile l (1 / 2)))
  have h1 : turned l.reverse = (turned l).reverse := List.map_reverse ..
  have h2 : turned (List.replicate 6 (E.quantile l (1 / 2))) = List.replicate 6 (-E.quantile l (1 / 2)) := List.map_replicate ..
  rw [h1, h2] at h
  rw [show -E.quantile l (1 / 4) + 3 / 2 * (-E.quantile l (1 / 4) - -E.quantile l (3 / 4)) =
      -(E.quantile l (1 / 4) - 3 / 2 * (E.quantile l (3 / 4) - E.quantile l (1 / 4))) by ring,
    show -E.quantile l (3 / 4) - 3 / 2 * (-E.quantile l (1 / 4) - -E.quantile l (3 / 4)) =
      -(E.quantile l (3 / 4) + 3 / 2 * (E.quantile l (3 / 4) - E.quantile l (1 / 4))) by ring, h, predictNext_turned]
  cases predictNext _ with
  | error e => rfl
  | ok p =>
    simp only [Except.map, bind, Except.bind, pure, Except.pure]
    congr 1
    unfold turned
    rw [List.map_append, List.map_replicate]

theorem spectralScore_turned {E : Env} (hM : Mirror E) (l : List ℚ) : spectralScore E (turned l) true = spectralScore E l true := by
  unfold spectralScore
  rw [extendSeries_turned hM]
  cases extendSeries E l true with
  | error e => rfl
  | ok x =>
    simp only [Except.map, bind, Except.bind]
    rw [hM.transform, turned_length]

theorem srExpectedEntire_turned (l : List ℚ) (skel : List Bool) : srExpectedEntire (turned l) skel = turned (srExpectedEntire l skel) := by
  unfold srExpectedEntire
  dsimp only
  rw [← averageFilter_turned]
  congr 1
  rw [turned_length]
  conv_rhs => unfold turned
  rw [List.map_map]
  refine List.map_congr_left fun i _ => ?_
  simp only [Function.comp]
  rw [turned_getD]
  have hz : (turned l).zip skel = (l.zip skel).map fun x => (-x.1, x.2) := by
    unfold turned
    rw [List.zip_map_left]
    rfl
  split
  · rfl
  · rw [hz, ← List.map_take, ← List.map_drop, List.filter_map, List.length_map]
    have hf : ((fun x : ℚ × Bool => x.2) ∘ fun x : ℚ × Bool => (-x.1, x.2)) = fun x => x.2 := rfl
    rw [hf]
    split
    · have : (turned l).take (i + 1) = turned (l.take (i + 1)) := (List.map_take ..).symm
      rw [this, npMean_turned]
    · rw [List.map_map]
      have : List.map ((fun x : ℚ × Bool => if x.2 = true then x.1 else 0) ∘ fun x : ℚ × Bool => (-x.1, x.2))
          (List.drop (i / 2) (List.take (i + 1) (l.zip skel))) =
          turned (List.map (fun x : ℚ × Bool => if x.2 = true then x.1 else 0) (List.drop (i / 2) (List.take (i + 1) (l.zip skel)))) := by
        unfold turned
        rw [List.map_map]
        refine List.map_congr_left fun x _ => ?_
        simp only [Function.comp]
        split <;> simp
      rw [this, turned_sum]
      ring

theorem trendDetection_turned {E : Env} (hM : Mirror E) (l : List ℚ) (p : Option Nat) :
    trendDetection E (turned l) p = (trendDetection E l p).map turned := by
  unfold trendDetection
  rw [turned_length]
  split
  · simp only [Except.map]
    rw [npMean_turned]
    unfold turned
    rw [List.map_replicate]
  · exact hM.trend l p

/-! ### the rows -/

/-- `r'` is `r` turned upside down; the direction is left open when the value is the expected one -/
structure TurnedRow (r r' : Row) : Prop where
  value : r'.value = -r.value
  expected : r'.expected = -r.expected
  trend : r'.trend = r.trend.map fun x => -x
  score : r'.score = r.score
  anom : r'.anom = r.anom
  side : r.value ≠ r.expected → r'.pos = r.neg ∧ r'.neg = r.pos

theorem assemble_turned (v e : List ℚ) (t s : Option (List ℚ)) (an : List Nat) :
    List.Forall₂ TurnedRow (assemble v e t s an) (assemble (turned v) (turned e) (t.map turned) s an) := by
  unfold assemble
  rw [turned_length, List.forall₂_map_left_iff, List.forall₂_map_right_iff, List.forall₂_same]
  intro i _
  dsimp only
  refine ⟨turned_getD v i, turned_getD e i, ?_, rfl, rfl, ?_⟩
  · cases t with
    | none => rfl
    | some t => simp only [Option.map_some, turned_getD]
  · dsimp only
    intro hne
    rw [turned_getD, turned_getD]
    unfold modifyStatus
    cases an.contains i with
    | false => simp
    | true =>
      simp only [Bool.not_true, Bool.false_eq_true, if_false]
      rcases lt_or_gt_of_ne hne with h | h
      · rw [if_neg (by linarith), if_pos h]
        exact ⟨rfl, rfl⟩
      · rw [if_pos (by linarith), if_neg (by linarith)]
        exact ⟨rfl, rfl⟩

theorem srTrend_turned (nt : Bool) (n : Nat) (x : Except PyErr (List ℚ)) :
    srTrend nt n (x.map turned) = (srTrend nt n x).map fun o => o.map turned := by
  unfold srTrend
  cases nt with
  | false => rfl
  | true =>
    cases x with
    | error e => rfl
    | ok t =>
      simp only [Except.map, if_true, turned_length]
      split <;> rfl

theorem srDetection_turned {E : Env} (hM : Mirror E) {s : List ℚ} {th : PyFloat} {r : ℚ} {nt : Bool} {rows : List Row} {model : ModelType}
    (h : srDetection E s th r nt false = .ok (rows, model)) :
    ∃ rows', srDetection E (turned s) th r nt false = .ok (rows', model) ∧ List.Forall₂ TurnedRow rows rows' := by
  unfold srDetection at h ⊢
  obtain ⟨⟨sc, md⟩, h1, h⟩ := ebind_ok.1 h
  have h1' : srScores E (turned s) (max ((dmul (turned s).length r).floor.toNat) 1) false = .ok (sc, md) := by
    unfold srScores at h1 ⊢
    simp only [Bool.false_eq_true, if_false] at h1 ⊢
    rw [spectralScore_turned hM]
    exact h1
  simp only [Bool.false_eq_true, if_false] at h
  obtain ⟨tr, h3, h⟩ := ebind_ok.1 h
  have h := epure_ok.1 h
  simp only [Prod.mk.injEq] at h
  obtain ⟨rfl, rfl⟩ := h
  have h3' : srTrend nt (turned s).length (trendDetection E (srExpectedEntire (turned s) (sc.map fun x => decide (x ≤ 1))) none) =
      .ok (tr.map turned) := by
    rw [srExpectedEntire_turned, trendDetection_turned hM, turned_length]
    rw [srTrend_turned, h3]
    rfl
  refine ⟨_, ebind_ok.2 ⟨(sc, md), h1', ?_⟩, assemble_turned s (srExpectedEntire s (sc.map fun x => decide (x ≤ 1))) tr _ _⟩
  simp only [Bool.false_eq_true, if_false]
  refine ebind_ok.2 ⟨_, h3', ?_⟩
  rw [srExpectedEntire_turned, turned_length]
  rfl

/-! ### the second pass -/

theorem diffs_turned (l : List ℚ) : diffs (turned l) = turned (diffs l) := by
  induction l with
  | nil => rfl
  | cons a t ih =>
    cases t with
    | nil => rfl
    | cons b t =>
      have e : turned (a :: b :: t) = -a :: -b :: turned t := rfl
      have e2 : diffs (-a :: -b :: turned t) = (-b - -a) :: diffs (-b :: turned t) := rfl
      have e3 : turned (diffs (a :: b :: t)) = -(b - a) :: turned (diffs (b :: t)) := rfl
      rw [e, e2, e3, ← ih, show -b - -a = -(b - a) by ring]
      rfl

theorem getDelta_turned (k : Nat) (l : List ℚ) : getDelta k (turned l) = (getDelta k l).map turned := by
  unfold getDelta
  dsimp only
  rw [diffs_turned]
  have : (turned (diffs l))[k]? = (diffs l)[k]?.map fun x => -x := List.getElem?_map ..
  rw [this]
  cases (diffs l)[k]? with
  | none => rfl
  | some x =>
    simp only [Option.map_some, Except.map]
    unfold turned
    rw [List.map_append, List.map_replicate, List.map_drop]

theorem deltaLoop_turned {E : Env} (hM : Mirror E) (n k : Nat) (l : List ℚ) :
    deltaLoop E n k (turned l) = (deltaLoop E n k l).map fun o => o.map fun x => (x.1, turned x.2) := by
  induction n generalizing k l with
  | zero => rfl
  | succ n ih =>
    simp only [deltaLoop, hM.stationary]
    split
    · rfl
    · rw [getDelta_turned]
      cases getDelta k l with
      | error e => rfl
      | ok x => exact ih _ _

theorem revDeltaLoop_turned (l : List ℚ) (a : ℚ) : revDeltaLoop (turned l) (-a) = turned (revDeltaLoop l a) := by
  induction l generalizing a with
  | nil => rfl
  | cons d t ih =>
    have e : turned (d :: t) = -d :: turned t := rfl
    rw [e]
    simp only [revDeltaLoop]
    rw [show -a + -d = -(a + d) by ring, ih]
    rfl

theorem undelta_turned (k : Nat) (vs l : List ℚ) : undelta k (turned vs) (turned l) = (undelta k vs l).map turned := by
  unfold undelta
  split
  · unfold reverseDelta
    rw [if_neg (by simp), if_neg (by simp), turned_getD, turned_getD, show -vs.getD 1 0 - -vs.getD 0 0 = -(vs.getD 1 0 - vs.getD 0 0) by ring]
    have : (turned l).drop 2 = turned (l.drop 2) := (List.map_drop ..).symm
    rw [this, revDeltaLoop_turned]
    simp only [Except.map]
    unfold turned
    rw [List.map_append, List.map_replicate]
  · rfl

theorem turned_values {rows rows' : List Row} (h : List.Forall₂ TurnedRow rows rows') :
    rows'.map (·.value) = turned (rows.map (·.value)) ∧ rows'.map (·.expected) = turned (rows.map (·.expected)) ∧
      (rows'.map fun r => r.trend.getD 0) = turned (rows.map fun r => r.trend.getD 0) ∧ rows'.map (·.anom) = rows.map (·.anom) := by
  induction h with
  | nil => exact ⟨rfl, rfl, rfl, rfl⟩
  | @cons a b s t hab _ ih =>
    obtain ⟨h1, h2, h3, h4⟩ := ih
    have ht : b.trend.getD 0 = -(a.trend.getD 0) := by
      rw [hab.trend]
      cases a.trend <;> simp
    refine ⟨?_, ?_, ?_, ?_⟩
    · rw [List.map_cons, h1, hab.value]; rfl
    · rw [List.map_cons, h2, hab.expected]; rfl
    · rw [List.map_cons, h3, ht]; rfl
    · rw [List.map_cons, h4, hab.anom]; rfl

theorem correctedAt_turned (o n : List ℚ) (p : Nat) : correctedAt (turned o) (turned n) p = -correctedAt o n p := by
  unfold correctedAt
  rw [turned_getD, turned_getD, turned_getD]
  split
  · rfl
  · ring

theorem mergeRows_turned {rows rows' drows drows' : List Row} (h : List.Forall₂ TurnedRow rows rows') (hd : List.Forall₂ TurnedRow drows drows')
    (newE newT : List ℚ) :
    List.Forall₂ TurnedRow (mergeRows rows drows newE newT) (mergeRows rows' drows' (turned newE) (turned newT)) := by
  have l1 := h.length_eq
  have l2 := hd.length_eq
  obtain ⟨-, v2, v3, -⟩ := turned_values h
  unfold mergeRows
  dsimp only
  rw [v2, v3]
  refine List.forall₂_iff_get.2 ⟨by simp [l1, l2], fun i h1 h2 => ?_⟩
  simp only [List.length_map, List.length_zipIdx, List.length_zip] at h1 h2
  have a := (List.forall₂_iff_get.1 h).2 i (by omega) (by omega)
  have b := (List.forall₂_iff_get.1 hd).2 i (by omega) (by omega)
  simp only [List.get_eq_getElem] at a b
  simp only [List.get_eq_getElem, List.getElem_map, List.getElem_zipIdx, List.getElem_zip, Nat.zero_add]
  rw [a.anom, b.anom]
  split
  · unfold mergedRow
    refine ⟨a.value, correctedAt_turned _ _ _, ?_, b.score, rfl, ?_⟩
    · dsimp only
      rw [a.trend, correctedAt_turned]
      cases (rows[i]).trend <;> rfl
    · dsimp only
      rw [correctedAt_turned, a.value]
      intro hne
      rcases lt_or_gt_of_ne hne with hlt | hlt
      · constructor
        · rw [decide_eq_true (neg_lt_neg hlt), decide_eq_true hlt.le]
        · rw [decide_eq_false (not_le.2 (neg_lt_neg hlt)), decide_eq_false (not_lt.2 hlt.le)]
      · constructor
        · rw [decide_eq_false (not_lt.2 (neg_le_neg hlt.le)), decide_eq_false (not_le.2 hlt)]
        · rw [decide_eq_true (neg_le_neg hlt.le), decide_eq_true hlt]
  · exact a

theorem filter_anom_length (rows : List Row) : (rows.filter (·.anom)).length = ((rows.map (·.anom)).filter id).length := by
  rw [List.filter_map, List.length_map]
  rfl

theorem mergeWithDelta_turned {E : Env} (hM : Mirror E) {rows rows' out : List Row} {series : List ℚ} {ratio : ℚ} {th : PyFloat} {nt : Bool}
    (hr : List.Forall₂ TurnedRow rows rows')
    (h : mergeWithDelta E rows series ratio (fun s r => srDetection E s th r nt false) = .ok out) :
    ∃ out', mergeWithDelta E rows' (turned series) ratio (fun s r => srDetection E s th r nt false) = .ok out' ∧
      List.Forall₂ TurnedRow out out' := by
  obtain ⟨v1, v2, v3, v4⟩ := turned_values hr
  unfold mergeWithDelta at h ⊢
  obtain ⟨o, ho, h⟩ := ebind_ok.1 h
  have ho' : shouldIncludeDelta E (turned series) = .ok (o.map fun x => (x.1, turned x.2)) := by
    unfold shouldIncludeDelta at ho ⊢
    rw [deltaLoop_turned hM, ho]
    rfl
  match o, ho', h with
  | none, ho', h =>
    cases epure_ok.1 h
    exact ⟨rows', ebind_ok.2 ⟨_, ho', rfl⟩, hr⟩
  | some (0, ds), ho', h =>
    cases epure_ok.1 h
    exact ⟨rows', ebind_ok.2 ⟨_, ho', rfl⟩, hr⟩
  | some (k + 1, ds), ho', h =>
    change (if (rows.filter (·.anom)).length < max ((dmul ds.length ratio).floor.toNat) 1 then _ else _) = _ at h
    have hlen : (rows'.filter (·.anom)).length = (rows.filter (·.anom)).length := by
      rw [filter_anom_length, filter_anom_length, v4]
    split at h
    · rename_i hlt
      obtain ⟨⟨drows, md⟩, h1, h⟩ := ebind_ok.1 h
      obtain ⟨newE, h2, h⟩ := ebind_ok.1 h
      obtain ⟨newT, h3, h⟩ := ebind_ok.1 h
      cases epure_ok.1 h
      obtain ⟨drows', h1', hd⟩ := srDetection_turned hM h1
      obtain ⟨-, w2, w3, -⟩ := turned_values hd
      refine ⟨_, ebind_ok.2 ⟨_, ho', ?_⟩, mergeRows_turned hr hd newE newT⟩
      change (if (rows'.filter (·.anom)).length < max ((dmul (turned ds).length ratio).floor.toNat) 1 then _ else _) = _
      rw [hlen, turned_length, if_pos hlt]
      refine ebind_ok.2 ⟨_, h1', ebind_ok.2 ⟨turned newE, ?_, ebind_ok.2 ⟨turned newT, ?_, rfl⟩⟩⟩
      · rw [v1, w2, undelta_turned, h2]; rfl
      · rw [v1, w3, undelta_turned, h3]; rfl
    · rename_i hlt
      cases epure_ok.1 h
      refine ⟨rows', ebind_ok.2 ⟨_, ho', ?_⟩, hr⟩
      change (if (rows'.filter (·.anom)).length < max ((dmul (turned ds).length ratio).floor.toNat) 1 then _ else _) = _
      rw [hlen, turned_length, if_neg hlt]
      rfl

theorem run_turned {E : Env} (hM : Mirror E) {M M' : Model} (hth : M'.threshold = M.threshold) (hnt : M'.needTrend = M.needTrend)
    {s : List ℚ} {r : ℚ} {p : Nat} (hp : ¬ 1 < p) (hs : shouldTriggerSr E M.gran M.interval s = true)
    (hs' : shouldTriggerSr E M'.gran M'.interval (turned s) = true) {rows : List Row} {model : ModelType}
    (h : M.run E s r p false = .ok (rows, model)) :
    ∃ rows', M'.run E (turned s) r p false = .ok (rows', model) ∧ List.Forall₂ TurnedRow rows rows' := by
  unfold Model.run at h ⊢
  rw [if_neg hp, if_pos hs] at h
  rw [if_neg hp, if_pos hs', hth, hnt]
  obtain ⟨⟨r1, m1⟩, h1, h⟩ := ebind_ok.1 h
  obtain ⟨r2, h2, h⟩ := ebind_ok.1 h
  have h := epure_ok.1 h
  simp only [Prod.mk.injEq] at h
  obtain ⟨rfl, rfl⟩ := h
  obtain ⟨r1', h1', f1⟩ := srDetection_turned hM h1
  obtain ⟨r2', h2', f2⟩ := mergeWithDelta_turned hM f1 h2
  exact ⟨r2', ebind_ok.2 ⟨_, h1', ebind_ok.2 ⟨_, h2', rfl⟩⟩, f2⟩

/-! ### the margins -/

/-- the row turned upside down -/
def turnRow (r : Row) : Row :=
  { r with value := -r.value, expected := -r.expected, trend := r.trend.map fun x => -x, pos := r.neg, neg := r.pos }

theorem clearNear_turned {r r' : Row} (h : TurnedRow r r') : clearNear r' = turnRow (clearNear r) := by
  obtain ⟨h1, h2, h3, h4, h5, h6⟩ := h
  obtain ⟨v, e, t, s, a, p, n⟩ := r
  obtain ⟨v', e', t', s', a', p', n'⟩ := r'
  dsimp only at *
  subst h1 h2 h3 h4 h5
  unfold clearNear turnRow
  dsimp only
  rw [show -v - -e = -(v - e) by ring, abs_neg]
  split
  · rfl
  · rename_i hn
    obtain ⟨rfl, rfl⟩ := h6 (by
      rintro rfl
      rw [sub_self, abs_zero] at hn
      exact hn eps_pos)
    rfl

theorem frame_turned {rows rows' : List Row} (h : List.Forall₂ TurnedRow rows rows') :
    rows'.map clearNear = (rows.map clearNear).map turnRow := by
  induction h with
  | nil => rfl
  | cons h _ ih => rw [List.map_cons, List.map_cons, List.map_cons, ih, clearNear_turned h]

/-- what the points of the two answers have in common, apart from the margins -/
structure TurnedOut (o o' : Out) : Prop where
  expected : o'.expected = -o.expected
  pos : o'.pos = o.neg
  neg : o'.neg = o.pos
  anom : o'.anom = o.anom

theorem srMargins_turned (sens : Int) (rows : List Row) : srMargins sens (rows.map turnRow) = srMargins sens rows := by
  unfold srMargins
  dsimp only
  have h : ((rows.map turnRow).filter fun r => decide (r.score.getD 0 ≤ EPS)).map (·.value) =
      turned ((rows.filter fun r => decide (r.score.getD 0 ≤ EPS)).map (·.value)) := by
    rw [List.filter_map]
    unfold turned
    rw [List.map_map, List.map_map]
    rfl
  rw [h, turned_length, npMax_turned, npMin_turned, List.map_map]
  rw [neg_sub_neg]
  refine List.map_congr_left fun r _ => ?_
  simp only [Function.comp]
  have e : |(turnRow r).value - (turnRow r).expected| = |r.value - r.expected| := by
    simp only [turnRow]
    rw [show -r.value - -r.expected = -(r.value - r.expected) by ring, abs_neg]
  rw [e]
  rfl

theorem v1Margins_turned (sens : Int) (rows : List Row) (model : ModelType) :
    v1Margins sens (rows.map turnRow) model = v1Margins sens rows model := by
  unfold v1Margins
  split
  · exact srMargins_turned sens rows
  · unfold adMargins
    rw [List.map_map]
    refine List.map_congr_left fun r _ => ?_
    simp only [Function.comp, turnRow, abs_neg]

/-- the point is inside the clipped bounds exactly if it is inside the margins -/
theorem refine_inside {rows : List Row} {ms : List ℚ} (hl : ms.length = rows.length) {i : Nat} (hi : i < rows.length) :
    (decide (rows[i].value ≤ min (rows[i].expected + ms[i]) (max (npMax (rows.map (·.value))) (npMax (rows.map (·.expected))))) &&
      decide (min (max (rows[i].expected - ms[i]) (min (npMin (rows.map (·.value))) (npMin (rows.map (·.expected)))))
          (npMax (List.zipWith (· - ·) (rows.map (·.expected)) ms)) ≤ rows[i].value)) = decide (|rows[i].value - rows[i].expected| ≤ ms[i]) := by
  have hv : rows[i].value ∈ rows.map (·.value) := List.mem_map.2 ⟨_, List.getElem_mem hi, rfl⟩
  have h1 : rows[i].value ≤ npMax (rows.map (·.value)) := le_npMax hv
  have h2 : npMin (rows.map (·.value)) ≤ rows[i].value := npMin_le hv
  have h3 : rows[i].expected - ms[i] ≤ npMax (List.zipWith (· - ·) (rows.map (·.expected)) ms) :=
    le_npMax (List.mem_iff_getElem.2 ⟨i, by simp [hl, hi], by simp⟩)
  rw [← Bool.decide_and]
  refine decide_eq_decide.2 ?_
  rw [abs_le]
  constructor
  · rintro ⟨a, b⟩
    refine ⟨?_, by linarith [le_min_iff.1 a]⟩
    rcases min_le_iff.1 b with b | b
    · linarith [max_le_iff.1 b]
    · linarith
  · rintro ⟨a, b⟩
    exact ⟨le_min (by linarith) (h1.trans (le_max_left _ _)),
      min_le_iff.2 (.inl (max_le (by linarith) ((min_le_left _ _).trans h2)))⟩

theorem marginsV1_turned (rows : List Row) (sens : Int) (model : ModelType) :
    List.Forall₂ TurnedOut (marginsV1 rows sens model) (marginsV1 (rows.map turnRow) sens model) := by
  rw [marginsV1_eq, marginsV1_eq, v1Margins_turned]
  have l1 := length_v1Margins sens rows model
  have l2 : (v1Margins sens rows model).length = (rows.map turnRow).length := by rw [l1, List.length_map]
  generalize v1Margins sens rows model = ms at *
  refine List.forall₂_iff_get.2 ⟨by rw [length_refineMargins l1, length_refineMargins l2, List.length_map], fun i h1 h2 => ?_⟩
  rw [length_refineMargins l1] at h1
  rw [length_refineMargins l2] at h2
  simp only [List.get_eq_getElem]
  rw [getElem_refineMargins l1 h1, getElem_refineMargins l2 h2]
  have e1 := refine_inside l1 h1
  have e2 := refine_inside l2 h2
  have e3 : decide (|(rows.map turnRow)[i].value - (rows.map turnRow)[i].expected| ≤ ms[i]) = decide (|rows[i].value - rows[i].expected| ≤ ms[i]) := by
    refine decide_eq_decide.2 ?_
    rw [List.getElem_map]
    simp only [turnRow]
    rw [show -rows[i].value - -rows[i].expected = -(rows[i].value - rows[i].expected) by ring, abs_neg]
  rw [e3] at e2
  unfold refinePoint
  dsimp only
  simp only [e1, e2]
  rw [List.getElem_map]
  split <;> exact ⟨rfl, rfl, rfl, rfl⟩

theorem boundaryUnits_turned (t : List ℚ) (a : List Bool) : boundaryUnits (turned t) a = boundaryUnits t a := by
  unfold boundaryUnits
  dsimp only
  have hz : (turned t).zip a = (t.zip a).map fun x => (-x.1, x.2) := by
    unfold turned
    rw [List.zip_map_left]
    rfl
  have hn : (((turned t).zip a).filter fun x => !x.2).map (·.1) = turned (((t.zip a).filter fun x => !x.2).map (·.1)) := by
    rw [hz, List.filter_map]
    unfold turned
    rw [List.map_map, List.map_map]
    rfl
  rw [hn]
  generalize ((t.zip a).filter fun x => !x.2).map (·.1) = normal
  have h1 : (turned normal).all (fun u => decide (|u| < EPS)) = normal.all (fun u => decide (|u| < EPS)) := by
    unfold turned
    rw [List.all_map]
    simp only [Function.comp_def, abs_neg]
  have h2 : (turned normal).map (fun u => |u|) = normal.map fun u => |u| := by
    unfold turned
    rw [List.map_map]
    simp only [Function.comp_def, abs_neg]
  have h3 : (turned t).map (fun x => |x| * (1 / 2) + npMean (normal.map fun u => |u|) * (1 / 2)) =
      t.map fun x => |x| * (1 / 2) + npMean (normal.map fun u => |u|) * (1 / 2) := by
    unfold turned
    rw [List.map_map]
    simp only [Function.comp_def, abs_neg]
  rw [h1, h2, h3]
  split
  · unfold turned
    rw [List.map_map]
    rfl
  · rfl

theorem rowUnits_turned (rows : List Row) : rowUnits (rows.map turnRow) = rowUnits rows := by
  unfold rowUnits
  rw [List.map_map, List.map_map]
  have h1 : rows.map ((fun r : Row => r.trend.getD 0) ∘ turnRow) = turned (rows.map fun r => r.trend.getD 0) := by
    unfold turned
    rw [List.map_map]
    refine List.map_congr_left fun r _ => ?_
    simp only [Function.comp, turnRow]
    cases r.trend <;> simp
  rw [h1, boundaryUnits_turned]
  rfl

theorem pointV2_turned {sens : Int} {r : Row} {u : ℚ} {o o' : Out} (h : pointV2 sens r u = .ok o) (h' : pointV2 sens (turnRow r) u = .ok o') :
    TurnedOut o o' ∧ (r.value ≠ r.expected → o'.upper = o.lower ∧ o'.lower = o.upper) ∧
      (r.value = r.expected → o'.upper = o.upper ∧ o'.lower = o.lower) := by
  obtain ⟨um, lm, h1, rfl⟩ := pointV2_eq h
  obtain ⟨um', lm', h2, rfl⟩ := pointV2_eq h'
  have e1 : |(-r.expected) - -r.value| = |r.expected - r.value| := by
    rw [show -r.expected - -r.value = -(r.expected - r.value) by ring, abs_neg]
  have e2 : |(-r.value) - -r.expected| = |r.value - r.expected| := by
    rw [show -r.value - -r.expected = -(r.value - r.expected) by ring, abs_neg]
  unfold calculateMargin at h1 h2
  simp only [turnRow, e1, e2] at h2
  split at h1
  · cases h1
  rename_i hs
  rw [if_neg hs] at h2
  split at h1
  · cases h1
  rename_i hu
  rw [if_neg hu] at h2
  dsimp only at h1 h2
  cases ha : r.anom with
  | false =>
    rw [ha] at h1 h2
    simp only [Bool.not_false, if_true] at h1 h2
    have ha' : (turnRow r).anom = false := ha
    refine ⟨⟨rfl, ?_, ?_, ?_⟩, ?_, ?_⟩
    · simp only [ha', Bool.false_and]
    · simp only [ha', Bool.false_and]
    · simp only [ha', Bool.false_and]
    · intro hne
      rcases lt_or_gt_of_ne hne with hlt | hlt
      · rw [if_neg (by linarith)] at h1
        rw [if_pos (by linarith)] at h2
        cases h1
        cases h2
        exact ⟨rfl, rfl⟩
      · rw [if_pos hlt] at h1
        rw [if_neg (by linarith)] at h2
        cases h1
        cases h2
        exact ⟨rfl, rfl⟩
    · intro he
      rw [if_neg (by linarith)] at h1
      rw [if_neg (by linarith)] at h2
      cases h1
      cases h2
      exact ⟨rfl, rfl⟩
  | true =>
    rw [ha] at h1 h2
    simp only [Bool.not_true, Bool.false_eq_true, if_false] at h1 h2
    simp only [Except.ok.injEq, Prod.mk.injEq] at h1 h2
    obtain ⟨a1, a2⟩ := h1
    obtain ⟨b1, b2⟩ := h2
    have e3 : lm = um := a2.symm.trans a1
    have e4 : um' = um := b1.symm.trans a1
    have e5 : lm' = um := b2.symm.trans a1
    have ha' : (turnRow r).anom = true := ha
    have c1 : decide ((turnRow r).value < (turnRow r).expected - um) = decide (r.expected + um < r.value) :=
      decide_eq_decide.2 ⟨fun h => by simp only [turnRow] at h; linarith, fun h => by simp only [turnRow]; linarith⟩
    have c2 : decide ((turnRow r).expected + um < (turnRow r).value) = decide (r.value < r.expected - um) :=
      decide_eq_decide.2 ⟨fun h => by simp only [turnRow] at h; linarith, fun h => by simp only [turnRow]; linarith⟩
    refine ⟨⟨rfl, ?_, ?_, ?_⟩, fun _ => ⟨?_, ?_⟩, fun _ => ⟨?_, ?_⟩⟩ <;> simp only [ha', e3, e4, e5, c1, c2, Bool.true_and, Bool.or_comm]

theorem getMargins_turned {rows : List Row} {sens : Int} {model : ModelType} {bv : BoundaryVersion} {outs outs' : List Out}
    (h : getMargins rows sens model bv = .ok outs) (h' : getMargins (rows.map turnRow) sens model bv = .ok outs') :
    List.Forall₂ TurnedOut outs outs' ∧ (bv ≠ .V1 → ∀ (k : Nat) (r : Row) (o o' : Out), rows[k]? = some r → outs[k]? = some o → outs'[k]? = some o' →
      (r.value ≠ r.expected → o'.upper = o.lower ∧ o'.lower = o.upper) ∧ (r.value = r.expected → o'.upper = o.upper ∧ o'.lower = o.lower)) := by
  unfold getMargins at h h'
  by_cases hb : bv = .V1
  · rw [if_pos hb] at h h'
    cases h
    cases h'
    exact ⟨marginsV1_turned rows sens model, fun hn => absurd hb hn⟩
  · rw [if_neg hb] at h h'
    rw [rowUnits_turned] at h'
    have f := mapM_forall₂ h
    have f' := mapM_forall₂ h'
    have lu := length_rowUnits rows
    have g1 := f.length_eq
    have g2 := f'.length_eq
    simp only [List.length_zip, List.length_map, lu, min_self] at g1 g2
    have key : ∀ (i : Nat) (hi : i < rows.length), _ := fun i hi => pointV2_turned
      (by simpa using (List.forall₂_iff_get.1 f).2 i (by simp [lu, hi]) (by omega))
      (by simpa using (List.forall₂_iff_get.1 f').2 i (by simp [lu, hi]) (by omega))
    refine ⟨List.forall₂_iff_get.2 ⟨by omega, fun i h1 h2 => (key i (by omega)).1⟩, fun _ k r o o' hr ho ho' => ?_⟩
    obtain ⟨i1, rfl⟩ := List.getElem?_eq_some_iff.1 hr
    obtain ⟨i2, rfl⟩ := List.getElem?_eq_some_iff.1 ho
    obtain ⟨i3, rfl⟩ := List.getElem?_eq_some_iff.1 ho'
    exact (key k i1).2

/-! ### the calls -/

namespace Spec

/-- two data frames with the same timestamps, whose values differ by their signs -/
def TurnedData (parse : String → Option PyFloat) : DataArg → DataArg → Prop
  | .frame hasTs hasValue rows, .frame hasTs' hasValue' rows' => hasTs' = hasTs ∧ hasValue' = hasValue ∧ rows'.map (·.1) = rows.map (·.1) ∧
      ∃ l : List ℚ, l.length = rows.length ∧ (∀ i q, l[i]? = some q → RowValue parse rows i q ∧ RowValue parse rows' i (-q))
  | _, _ => False

/-- two items about the same point: the second tells of the first, turned upside down -/
structure TurnedItem (a b : Item) : Prop where
  timestamp : b.timestamp = a.timestamp
  expected : b.expected = -a.expected
  pos : b.pos = a.neg
  neg : b.neg = a.pos
  anom : b.anom = a.anom
  period : b.period = a.period
  suggested : b.suggested = a.suggested

end Spec

theorem TurnedData.scattered {parse : String → Option PyFloat} {c : ℚ} {data data' : DataArg} (h : TurnedData parse data data')
    (hs : Scattered parse c data) : Scattered parse c data' := by
  match data, data', h, hs with
  | .frame _ _ rows, .frame _ _ rows', ⟨_, _, h1, l, h2, h3⟩, ⟨l0, med, mad, g1, g2, g3, g4, g5⟩ =>
    have hlen : rows'.length = rows.length := by simpa using congrArg List.length h1
    have hl : l0 = l := by
      refine List.ext_getElem (by omega) fun i i1 i2 => ?_
      obtain ⟨v, e1, r1⟩ := g2 i _ (List.getElem?_eq_getElem i1)
      obtain ⟨⟨v', e2, r2⟩, -⟩ := h3 i _ (List.getElem?_eq_getElem i2)
      rw [e1] at e2
      cases e2
      exact reads_unique r1 r2
    subst hl
    refine ⟨turned l0, -med, mad, by rw [turned_length, hlen, g1], ?_, isMedian_turned g3, ?_, g5⟩
    · intro i q hq
      unfold turned at hq
      rw [List.getElem?_map] at hq
      cases h4 : l0[i]? with
      | none => rw [h4] at hq; cases hq
      | some x =>
        rw [h4] at hq
        cases hq
        exact (h3 i x h4).2
    · have : (turned l0).map (fun x => |x - -med|) = l0.map fun x => |x - med| := by
        unfold turned
        rw [List.map_map]
        refine List.map_congr_left fun x _ => ?_
        simp only [Function.comp]
        rw [show -x - -med = -(x - med) by ring, abs_neg]
      rw [this]
      exact g4

theorem turned_traces {E : Env} (hM : Mirror E) {d : Detector} {data data' : DataArg} {params : Params} {n : Int}
    (hq : SrRequest E data params n) (ht : TurnedData E.parseFloat data data') (hm : InMode d params .ENTIRE) {items items' : List Item}
    (T : Trace E d data params items) (T' : Trace E d data' params items') :
    T'.frame0.map clearNear = (T.frame0.map clearNear).map turnRow ∧ T'.model = T.model ∧ T'.period = T.period ∧
      rowStamps T'.hasTs T'.rows = rowStamps T.hasTs T.rows ∧ paramSens T'.after = paramSens T.after ∧
      paramBoundary T'.after = paramBoundary T.after := by
  obtain ⟨s1, p1, q1, r1⟩ := T.sr hq
  obtain ⟨s2, p2, q2, r2⟩ := T'.sr ⟨hq.period, hq.small, hq.fine, hq.unfilled, TurnedData.scattered ht hq.scattered⟩
  have ht0 := ht
  rw [T.isFrame, T'.isFrame] at ht0
  obtain ⟨t1, t2, t3, l, l1, l2⟩ := ht0
  have hlen : T'.rows.length = T.rows.length := by simpa using congrArg List.length t3
  have hv : T.M.values = l := values_eq T.validated.values (mapM_finite_fin _) l1 fun i q h => (l2 i q h).1
  have hv' : T'.M.values = turned l := values_eq T'.validated.values (mapM_finite_fin _) (by rw [turned_length, hlen, l1]) fun i q h => by
    unfold turned at h
    rw [List.getElem?_map] at h
    cases h4 : l[i]? with
    | none => rw [h4] at h; cases h
    | some x =>
      rw [h4] at h
      cases h
      exact (l2 i x h4).2
  have hlast : ∀ {x : PyVal}, x = .dtype .ENTIRE → isLatest x = false := by rintro x rfl; rfl
  have hth : T'.M.threshold = T.M.threshold := by
    rw [T.configured.threshold, T'.configured.threshold]
    have a := T.parsed.threshold
    have b := T'.parsed.threshold
    rcases a with ⟨a1, a2⟩ | ⟨f, a1, a2⟩ <;> rcases b with ⟨b1, b2⟩ | ⟨g, b1, b2⟩ <;> rw [a1] at b1 <;> cases b1 <;> rw [a2, b2]
  obtain ⟨b, x1, a1, a2⟩ := T.parsed.boundary
  obtain ⟨c, x2, b1, b2⟩ := T'.parsed.boundary
  have hbc : c = b := by
    rcases a2 with ⟨a2, a3⟩ | ⟨s, a2, a3⟩ <;> rcases b2 with ⟨b2, b3⟩ | ⟨t, b2, b3⟩ <;> rw [a2] at b2 <;> cases b2
    · rw [a3, b3]
    · rw [a3] at b3
      cases b3
      rfl
  have hnt : T'.M.needTrend = T.M.needTrend := by
    rw [T.configured.trend, T'.configured.trend, a1, b1, hbc]
  have hra : T'.ratio = T.ratio := by
    have h1 := T.selected.finite
    have h2 := T'.selected.finite
    rw [hlast (T.mode_eq hm)] at h1
    rw [hlast (T'.mode_eq hm)] at h2
    simp only [Model.maxRatio, Bool.false_and, Bool.false_eq_true, if_false] at h1 h2
    rw [T.configured.ratio] at h1
    rw [T'.configured.ratio] at h2
    have e : T'.mp.ratio = T.mp.ratio := by
      rcases T.parsed.ratio with ⟨a1, a2⟩ | ⟨f, a1, -, -, a2⟩ <;> rcases T'.parsed.ratio with ⟨b1, b2⟩ | ⟨g, b1, -, -, b2⟩ <;>
        rw [a1] at b1 <;> cases b1 <;> rw [a2, b2]
    rw [e, h1] at h2
    exact (PyFloat.fin.inj h2).symm
  rw [hlast (T.mode_eq hm)] at r1
  rw [hlast (T'.mode_eq hm), hra] at r2
  rw [hv] at r1 s1
  rw [hv', q2, ← q1] at r2
  rw [hv'] at s2
  obtain ⟨rows', k1, k2⟩ := run_turned hM hth hnt p1 s1 s2 r1
  rw [r2] at k1
  have k1 := Except.ok.inj k1
  simp only [Prod.mk.injEq] at k1
  obtain ⟨rfl, k3⟩ := k1
  refine ⟨frame_turned k2, k3, q2.trans q1.symm, ?_, ?_, ?_⟩
  · unfold rowStamps
    rw [t1, t3, hlen]
  · unfold paramSens
    rcases T.parsed.sensitivity with ⟨a1, a2⟩ | ⟨v, i, a1, -, -, -, a2⟩ <;> rcases T'.parsed.sensitivity with ⟨b1, b2⟩ | ⟨w, j, b1, -, -, -, b2⟩ <;>
      rw [a1] at b1 <;> cases b1 <;> rw [a2, b2]
  · unfold paramBoundary
    rw [x1, x2, hbc]

/-- **C133** Turning a series upside down. Two data frames have the same timestamps and values of opposite sign, and the request, in ENTIRE mode, is one that
the spectral residual model answers. If both are answered, then the same points are reported as anomalies, positive ones as negative and the other way round,
and the expected values have opposite signs. With V2 or V3 boundaries the upper and the lower margin of each point change places, unless the value is exactly
the expected one, when they are the same as before. -/
theorem C133_mirror {E : Env} (hE : E.WF) (hM : Mirror E) {W : Wild} {d : Detector} {data data' : DataArg} {params : Params}
    (hno : params "indices" = none) (hf : FiniteFill E data params) (hf' : FiniteFill E data' params) (hm : InMode d params .ENTIRE)
    {n : Int} (hq : SrRequest E data params n) (ht : TurnedData E.parseFloat data data') {items items' : List Item}
    (h : (predict E W d data params).outcome = .ok items) (h' : (predict E W d data' params).outcome = .ok items') :
    List.Forall₂ TurnedItem items items' ∧ ((∃ s ∈ ["V2", "V3"], params "boundaryVersion" = some (.str s)) →
      ∀ hasTs hasValue rows (k : Nat) (a b : Item) (q : ℚ), data = .frame hasTs hasValue rows → RowValue E.parseFloat rows k q →
        items[k]? = some a → items'[k]? = some b →
        (q ≠ a.expected → b.upper = a.lower ∧ b.lower = a.upper) ∧ (q = a.expected → b.upper = a.upper ∧ b.lower = a.lower)) := by
  obtain ⟨T⟩ := predict_trace hE hno hf h
  obtain ⟨T'⟩ := predict_trace hE hno hf' h'
  obtain ⟨e1, e2, e3, e4, e5, e6⟩ := turned_traces hM hq ht hm T T'
  have f1 := T.finished
  have f2 := T'.finished
  rw [T.mode_eq hm] at f1
  rw [T'.mode_eq hm, e1, e2, e3, e4, e5, e6] at f2
  unfold finish at f1 f2
  rw [List.length_map] at f2
  split at f1
  · cases f1
  rename_i hl
  have hl := not_not.1 hl
  rw [if_neg (by rw [hl]; exact fun h => h rfl)] at f2
  dsimp only at f1 f2
  obtain ⟨outs, o1, f1⟩ := ebind_ok.1 f1
  obtain ⟨outs', o2, f2⟩ := ebind_ok.1 f2
  have f1 := epure_ok.1 f1
  have f2 := epure_ok.1 f2
  rw [← f1, ← f2]
  obtain ⟨g1, g2⟩ := getMargins_turned o1 o2
  have ok := getMargins_ok (paramSens_range T.parsed).2 (T.ready hE) o1
  have lo : outs.length = (rowStamps T.hasTs T.rows).length := by rw [← hl, ok.length_eq]
  have lo' : outs'.length = (rowStamps T.hasTs T.rows).length := by rw [← lo, g1.length_eq]
  refine ⟨?_, ?_⟩
  · refine List.forall₂_iff_get.2 ⟨by simp [lo, lo'], fun i h1 h2 => ?_⟩
    simp only [List.length_zipWith, lo, lo', min_self] at h1 h2
    have := (List.forall₂_iff_get.1 g1).2 i (by omega) (by omega)
    simp only [List.get_eq_getElem] at this
    simp only [List.get_eq_getElem, List.getElem_zipWith, mkItem]
    exact ⟨rfl, this.expected, this.pos, this.neg, this.anom, rfl, rfl⟩
  · rintro ⟨s, hs, hb⟩ hasTs hasValue rows k a b q hd hrow ha hb'
    have hv1 : paramBoundary T.after ≠ .V1 := by
      obtain ⟨c, x1, -, x2⟩ := T.parsed.boundary
      unfold paramBoundary
      rw [x1]
      dsimp only
      have hp : presentKey params "boundaryVersion" = some (.str s) := by
        unfold presentKey
        rw [hb]
      rcases x2 with ⟨x2, -⟩ | ⟨t, x2, x3⟩
      · rw [hp] at x2; cases x2
      · rw [hp] at x2
        cases x2
        rintro rfl
        simp only [List.mem_cons, List.not_mem_nil, or_false] at hs
        rcases hs with rfl | rfl <;> revert x3 <;> decide
    obtain ⟨i1, rfl⟩ := List.getElem?_eq_some_iff.1 ha
    obtain ⟨i2, rfl⟩ := List.getElem?_eq_some_iff.1 hb'
    simp only [List.length_zipWith, lo, lo', min_self] at i1 i2
    have l1 : (T.frame0.map clearNear).length = outs.length := ok.length_eq
    have i3 : k < (T.frame0.map clearNear).length := by omega
    have g3 := g2 hv1 k _ _ _ (List.getElem?_eq_getElem i3) (List.getElem?_eq_getElem (by omega)) (List.getElem?_eq_getElem (by omega))
    have g4 := (List.forall₂_iff_get.1 ok).2 k i3 (by omega)
    simp only [List.get_eq_getElem] at g4
    have hval : (T.frame0.map clearNear)[k].value = q := by
      have h5 := (T.frameOk hE).values
      have ht0 := ht
      rw [T.isFrame, T'.isFrame] at ht0
      obtain ⟨-, -, -, l, m1, m2⟩ := ht0
      have hv : T.M.values = l := values_eq T.validated.values (mapM_finite_fin _) m1 fun i q h => (m2 i q h).1
      obtain ⟨-, -, rfl⟩ : hasTs = T.hasTs ∧ hasValue = T.hasValue ∧ rows = T.rows := by simpa using hd.symm.trans T.isFrame
      have i4 : k < l.length := by
        have := congrArg List.length h5
        rw [hv] at this
        simp only [List.length_map] at this i3
        omega
      obtain ⟨⟨v, r1, r2⟩, -⟩ := m2 k _ (List.getElem?_eq_getElem i4)
      obtain ⟨w, r3, r4⟩ := hrow
      rw [r1] at r3
      cases r3
      rw [← reads_unique r2 r4, List.getElem_map, clearNear_value]
      have : (T.frame0.map (·.value))[k]'(by simpa using i3) = l[k] := by
        simp only [h5, hv]
      simpa using this
    rw [hval, ← g4.expected] at g3
    simpa only [List.getElem_zipWith, mkItem] using g3

/-! ### concrete cases -/

/-- the small library with a symmetric quantile -/
def mirrorEnv : Env := { demoEnv with quantile := fun l q => q * npMax l + (1 - q) * npMin l }

theorem mirrorEnv_WF : mirrorEnv.WF := { demoEnv_WF with }

theorem mirrorEnv_mirror : Mirror mirrorEnv where
  transform := fun l => by
    simp only [mirrorEnv, demoEnv, turned, List.map_map, Function.comp_def, abs_neg]
  quantile := fun l q => by
    simp only [mirrorEnv, npMax_turned, npMin_turned]
    ring
  stationary := fun _ => rfl
  trend := fun l p => by
    simp only [mirrorEnv, demoEnv, Except.map, turned_length, npMean_turned]
    unfold turned
    rw [List.map_replicate]

/-- margins of the answer, upper and lower -/
def marginsIn (r : CallResult) : Option (List (ℚ × ℚ)) :=
  match r.outcome with
  | .ok items => some (items.map fun a => (a.upper, a.lower))
  | .error _ => none

/-- **C133** (with V1 boundaries the margins need not change places): there is a series of 14 daily values, none of which is reported as an anomaly, for which
every upper margin is 2 and every lower margin 11; turned upside down, every upper margin is 1 and every lower margin 11. Upper boundaries are cut off at the
largest value, lower boundaries are not cut off at the smallest one. -/
theorem C133_cut_off : ∃ (E : Env) (l : List Int), E.WF ∧ Mirror E ∧ l.length = 14 ∧
    marginsIn (predict E demoWild entireDetector (.frame true true (demoRows l 86400)) (optParams "daily" 1 [("sensitivity", .int 0)])) =
      some (List.replicate 14 (2, 11)) ∧
    marginsIn (predict E demoWild entireDetector (.frame true true (demoRows (l.map fun x => -x) 86400)) (optParams "daily" 1 [("sensitivity", .int 0)])) =
      some (List.replicate 14 (1, 11)) ∧
    flaggedIn (predict E demoWild entireDetector (.frame true true (demoRows l 86400)) (optParams "daily" 1 [("sensitivity", .int 0)])) =
      some (List.replicate 14 false) := by
  refine ⟨mirrorEnv, [10, 11, 12, 11, 10, 11, 12, 11, 10, 11, 12, 11, 13, 11], mirrorEnv_WF, mirrorEnv_mirror, rfl, ?_, ?_, ?_⟩ <;> decide +kernel

theorem spiked_mirror : Scattered mirrorEnv.parseFloat mirrorEnv.gaussC (.frame true true (demoRows spiked 60)) := spiked_scattered

theorem spiked_turned : TurnedData mirrorEnv.parseFloat (.frame true true (demoRows spiked 60)) (.frame true true (demoRows (spiked.map fun x => -x) 60)) := by
  refine ⟨rfl, rfl, rfl, spiked.map fun i : Int => (i : ℚ), by decide, ?_⟩
  intro i q h
  have hi : i < 14 := by
    by_contra hc
    rw [List.getElem?_eq_none (by simpa [spiked] using hc)] at h
    cases h
  rw [List.getElem?_map] at h
  interval_cases i <;> (cases h; exact ⟨⟨_, rfl, .int (.int _)⟩, ⟨_, rfl, by
    first
      | exact .int (.int 0)
      | exact .int (.int (-10))
      | exact .int (.int (-90))
      | exact .int (.int (-70))⟩⟩)

/-- a request about them with V2 boundaries -/
def mirrorParams : Params := optParams "minutely" 1 [("threshold", .float (.fin 0)), ("boundaryVersion", .str "V2")]

/-- the directions of the reported anomalies -/
def sidesIn (r : CallResult) : Option (List (Bool × Bool)) :=
  match r.outcome with
  | .ok items => some (items.map fun a => (a.pos, a.neg))
  | .error _ => none

/-- `C133_mirror`: three positive anomalies become three negative ones -/
example : ∃ items items' : List Item,
    (predict mirrorEnv demoWild entireDetector (.frame true true (demoRows spiked 60)) mirrorParams).outcome = .ok items ∧
    (predict mirrorEnv demoWild entireDetector (.frame true true (demoRows (spiked.map fun x => -x) 60)) mirrorParams).outcome = .ok items' ∧
    (items.map (·.pos))[10]? = some true ∧ (items'.map (·.neg))[10]? = some true ∧ List.Forall₂ TurnedItem items items' := by
  have ho : sidesIn (predict mirrorEnv demoWild entireDetector (.frame true true (demoRows spiked 60)) mirrorParams) =
      some [(false, false), (true, false), (false, false), (false, false), (false, false), (false, false), (false, false),
        (false, false), (false, false), (false, false), (true, false), (false, false), (false, false), (true, false)] := by decide +kernel
  have ho' : sidesIn (predict mirrorEnv demoWild entireDetector (.frame true true (demoRows (spiked.map fun x => -x) 60)) mirrorParams) =
      some [(false, false), (false, true), (false, false), (false, false), (false, false), (false, false), (false, false),
        (false, false), (false, false), (false, false), (false, true), (false, false), (false, false), (false, true)] := by decide +kernel
  have key : ∀ {r : CallResult} {l : List (Bool × Bool)}, sidesIn r = some l → ∃ its, r.outcome = .ok its ∧ its.map (fun a => (a.pos, a.neg)) = l := by
    intro r l h
    unfold sidesIn at h
    split at h
    · rename_i its hi
      exact ⟨its, hi, Option.some.inj h⟩
    · cases h
  obtain ⟨its, h, e⟩ := key ho
  obtain ⟨its', h', e'⟩ := key ho'
  have hfill : ∀ data, FiniteFill mirrorEnv data mirrorParams := fun data => .inl ⟨(by intro h; cases h), fun f h => by cases h⟩
  have := C133_mirror mirrorEnv_WF mirrorEnv_mirror (by rfl) (hfill _) (hfill _) (.inl (by rfl)) (n := 1)
    ⟨⟨.int 1, by rfl, .int 1⟩, by decide, .inl ⟨by rfl, fun v i h => by cases h⟩, ⟨.inl (by rfl), .inl (by rfl)⟩, spiked_mirror⟩ spiked_turned h h'
  refine ⟨its, its', h, h', ?_, ?_, this.1⟩
  · have := congrArg (fun l => (l.map Prod.fst)[10]?) e
    simpa [List.map_map, Function.comp_def] using this
  · have := congrArg (fun l => (l.map Prod.snd)[10]?) e'
    simpa [List.map_map, Function.comp_def] using this

end Verif
