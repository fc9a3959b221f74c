import Verif.Props.Scaled

/-!
# Unit and zero point of the values (C137)

What the dynamic threshold model answers for a series and for the same series on another scale, as for degrees Celsius and Fahrenheit.
-/

namespace Verif

open Spec

namespace Spec

/-- every value multiplied by `c` and raised by `b` -/
def moved (c b : ℚ) (l : List ℚ) : List ℚ := l.map fun x => c * x + b

/-- What is assumed of the numerical library: the fitted trend of a series on another scale is the trend on that scale, and the tests for stationarity and the
histogram do not see the scale. -/
structure Degrees (E : Env) (c : ℚ) : Prop where
  trend : ∀ b l p, E.fitTrend (moved c b l) p = (E.fitTrend l p).map (moved c b)
  stationary : ∀ b l, E.stationary (moved c b l) = E.stationary l
  histogram : ∀ b l, E.histMajority (moved c b l) = E.histMajority l

/-- not all values are equal -/
def Varies (l : List ℚ) : Prop := ∃ x ∈ l, ∃ y ∈ l, x ≠ y

/-- the series of values varies, and so do its differences where these are looked at -/
def Varying (E : Env) (data : DataArg) : Prop :=
  ∀ s, HasValues E.parseFloat data s → Varies s ∧ ∀ k ds, shouldIncludeDelta E s = .ok (some (k, ds)) → Varies ds

/-- a request that the dynamic threshold model answers without filling: it names a period of at most 1 and steps of an hour or more -/
structure DtRequest (params : Params) (n : Int) : Prop where
  period : NamesPeriod params n
  small : n ≤ 1
  coarse : ¬ FineGrained params
  unfilled : NoFillMode params

/-- two data frames with the same timestamps; the values of the second are those of the first on another scale -/
def MovedData (parse : String → Option PyFloat) (c b : ℚ) : DataArg → DataArg → Prop
  | .frame hasTs hasValue rows, .frame hasTs' hasValue' rows' => hasTs' = hasTs ∧ hasValue' = hasValue ∧ rows'.map (·.1) = rows.map (·.1) ∧
      ∃ l : List ℚ, l.length = rows.length ∧ (∀ i q, l[i]? = some q → RowValue parse rows i q ∧ RowValue parse rows' i (c * q + b))
  | _, _ => False

/-- two items about the same point, on the two scales -/
structure MovedItem (c b : ℚ) (x y : Item) : Prop where
  timestamp : y.timestamp = x.timestamp
  expected : y.expected = c * x.expected + b
  pos : y.pos = x.pos
  neg : y.neg = x.neg
  anom : y.anom = x.anom
  period : y.period = x.period
  suggested : y.suggested = x.suggested

end Spec

variable {c b : ℚ}

theorem moved_length (c b : ℚ) (l : List ℚ) : (moved c b l).length = l.length := List.length_map ..

theorem moved_getD (c b : ℚ) {l : List ℚ} {i : Nat} (h : i < l.length) : (moved c b l).getD i 0 = c * l.getD i 0 + b := by
  unfold moved
  rw [List.getD_eq_getElem?_getD, List.getD_eq_getElem?_getD, List.getElem?_map, List.getElem?_eq_getElem h]
  rfl

theorem moved_zero (c : ℚ) (l : List ℚ) : moved c 0 l = scaled c l := by
  unfold moved scaled
  simp only [add_zero]

theorem moved_eq (c b : ℚ) (l : List ℚ) : moved c b l = (scaled c l).map (· + b) := by
  unfold moved scaled
  rw [List.map_map]
  rfl

theorem npMax_raised {l : List ℚ} (h : l ≠ []) (b : ℚ) : npMax (l.map (· + b)) = npMax l + b := by
  have h' : l.map (· + b) ≠ [] := by simpa using h
  apply le_antisymm
  · refine npMax_le h' fun x hx => ?_
    obtain ⟨y, hy, rfl⟩ := List.mem_map.1 hx
    exact add_le_add_left (le_npMax hy) b
  · exact le_npMax (List.mem_map.2 ⟨_, npMax_mem h, rfl⟩)

theorem npMin_raised {l : List ℚ} (h : l ≠ []) (b : ℚ) : npMin (l.map (· + b)) = npMin l + b := by
  have h' : l.map (· + b) ≠ [] := by simpa using h
  apply le_antisymm
  · exact npMin_le (List.mem_map.2 ⟨_, npMin_mem h, rfl⟩)
  · refine le_npMin h' fun x hx => ?_
    obtain ⟨y, hy, rfl⟩ := List.mem_map.1 hx
    exact add_le_add_left (npMin_le hy) b

theorem Spec.Varies.ne {l : List ℚ} (h : Varies l) : l ≠ [] := by
  rintro rfl
  obtain ⟨x, hx, -⟩ := h
  cases hx

theorem Spec.Varies.range {l : List ℚ} (h : Varies l) : npMin l ≠ npMax l := by
  obtain ⟨x, hx, y, hy, hne⟩ := h
  intro e
  have h1 := npMin_le hx
  have h2 := le_npMax hx
  have h3 := npMin_le hy
  have h4 := le_npMax hy
  exact hne (by linarith)

/-- scaling to [0, 1] removes unit and zero point -/
theorem normalize_moved (hc : 0 < c) (b : ℚ) {l : List ℚ} (h : Varies l) : normalize (moved c b l) = normalize l := by
  have h1 := h.range
  have hs : scaled c l ≠ [] := by simpa [scaled] using h.ne
  unfold normalize
  dsimp only
  rw [moved_eq, npMin_raised hs, npMax_raised hs, npMin_scaled hc, npMax_scaled hc, if_pos h1, if_pos (by
    intro e
    exact h1 (mul_left_cancel₀ hc.ne' (add_right_cancel e)))]
  rw [← moved_eq]
  unfold moved
  rw [List.map_map]
  refine List.map_congr_left fun x _ => ?_
  simp only [Function.comp]
  rw [add_sub_add_right_eq_sub, add_sub_add_right_eq_sub, ← mul_sub, ← mul_sub, mul_div_mul_left _ _ hc.ne']

theorem npMean_moved (c b : ℚ) {l : List ℚ} (h : l ≠ []) : npMean (moved c b l) = c * npMean l + b := by
  have hl : (l.length : ℚ) ≠ 0 := by simpa using h
  have hs : (moved c b l).sum = c * l.sum + l.length * b := by
    unfold moved
    clear h hl
    induction l with
    | nil => simp
    | cons a t ih => simp only [List.map_cons, List.sum_cons, ih, List.length_cons]; push_cast; ring
  unfold npMean
  rw [hs, moved_length]
  field_simp

theorem trendDetection_moved {E : Env} (hD : Degrees E c) (b : ℚ) (l : List ℚ) (p : Option Nat) :
    trendDetection E (moved c b l) p = (trendDetection E l p).map (moved c b) := by
  unfold trendDetection
  rw [moved_length]
  split
  · simp only [Except.map]
    by_cases h : l = []
    · subst h; rfl
    · rw [npMean_moved c b h]
      simp [moved]
  · exact hD.trend b l p

theorem presentFrom_moved (f : ℚ → ℚ) (k : Nat) (l : List (Option ℚ)) :
    presentFrom k (l.map (·.map f)) = (presentFrom k l).map fun x => (x.1, f x.2) := by
  induction l generalizing k with
  | nil => rfl
  | cons a t ih =>
    cases a with
    | none => simpa [presentFrom] using ih (k + 1)
    | some v => simp [presentFrom, ih (k + 1)]

theorem npInterp_moved (c b : ℚ) {pts : List (ℚ × ℚ)} (h : pts ≠ []) (x : ℚ) :
    npInterp (pts.map fun y => (y.1, c * y.2 + b)) x = c * npInterp pts x + b := by
  induction pts with
  | nil => exact absurd rfl h
  | cons p t ih =>
    cases t with
    | nil => rfl
    | cons q t =>
      obtain ⟨x0, y0⟩ := p
      obtain ⟨x1, y1⟩ := q
      have ih := ih (by simp)
      simp only [List.map_cons, npInterp] at ih ⊢
      split
      · rfl
      split
      · ring
      · exact ih

theorem interp_moved (c b : ℚ) (l : List (Option ℚ)) :
    interp (l.map (·.map fun x => c * x + b)) = (interp l).map (moved c b) := by
  unfold interp
  have h1 : (l.map (·.map fun x => c * x + b)).any Option.isNone = l.any Option.isNone := by
    rw [List.any_map]
    congr 1
    funext x
    cases x <;> rfl
  rw [h1, presentFrom_moved, List.isEmpty_map]
  split
  · rfl
  · rename_i h
    simp only [Except.map, moved]
    rw [List.zipIdx_map, List.map_map, List.map_map]
    congr 1
    refine List.map_congr_left fun x hx => ?_
    obtain ⟨a, i⟩ := x
    cases a with
    | some v => simp [Prod.map]
    | none =>
      simp only [Function.comp, Prod.map, Option.map_none, Option.getD_none, id]
      have hn : l.any Option.isNone = true := by
        rw [List.any_eq_true]
        have := (List.mem_zipIdx hx)
        exact ⟨none, by rw [this.2.2]; exact List.getElem_mem _, rfl⟩
      have hk : obsKnots l ≠ [] := by
        rw [hn, Bool.true_and] at h
        unfold obsKnots
        simpa using h
      rw [← npInterp_moved c b hk]
      unfold obsKnots
      rw [presentFrom_moved, List.map_map, List.map_map]
      rfl

/-- a row on the other scale -/
def moveRow (c b : ℚ) (r : Row) : Row :=
  { r with value := c * r.value + b, expected := c * r.expected + b, trend := r.trend.map fun x => c * x + b }

theorem assemble_moved (hc : 0 < c) (b : ℚ) {v e : List ℚ} (h : e.length = v.length) (nt : Bool) (an : List Nat) :
    assemble (moved c b v) (moved c b e) (if nt then some (moved c b e) else none) none an =
      (assemble v e (if nt then some e else none) none an).map (moveRow c b) := by
  unfold assemble
  rw [moved_length, List.map_map]
  refine List.map_congr_left fun i hi => ?_
  have hi := List.mem_range.1 hi
  simp only [Function.comp, moved_getD c b hi, moved_getD c b (h.symm ▸ hi)]
  have hst : modifyStatus (an.contains i) (c * e.getD i 0 + b) (c * v.getD i 0 + b) = modifyStatus (an.contains i) (e.getD i 0) (v.getD i 0) := by
    unfold modifyStatus
    simp only [add_lt_add_iff_right, mul_lt_mul_iff_right₀ hc]
  rw [hst]
  cases nt with
  | false => rfl
  | true => simp only [if_true, Option.map_some, Option.map_none, moveRow, moved_getD c b (h.symm ▸ hi)]

theorem dtTrend_moved {E : Env} (hD : Degrees E c) (b : ℚ) (l t : List ℚ) {an : List Nat} :
    dtTrend E (moved c b l) (moved c b t) an = (dtTrend E l t an).map (moved c b) := by
  unfold dtTrend
  split
  · have : ((moved c b l).zipIdx.map fun x => if an.contains x.2 then none else some x.1) =
        (l.zipIdx.map fun x => if an.contains x.2 then none else some x.1).map (·.map fun x => c * x + b) := by
      unfold moved
      rw [List.zipIdx_map, List.map_map, List.map_map]
      refine List.map_congr_left fun x _ => ?_
      simp only [Function.comp, Prod.map, id]
      split <;> rfl
    rw [this, interp_moved]
    cases interp (l.zipIdx.map fun x => if an.contains x.2 then none else some x.1) with
    | error e => rfl
    | ok f => exact trendDetection_moved hD b f none
  · rfl

theorem dtDetection_moved {E : Env} (hc : 0 < c) (hD : Degrees E c) (b : ℚ) {l : List ℚ} (hl : Varies l) (t : List ℚ) (al : PyFloat) (q : ℚ) (nt last : Bool) :
    dtDetection E (moved c b l) (moved c b t) al q nt last = (dtDetection E l t al q nt last).map fun x => (x.1.map (moveRow c b), x.2) := by
  unfold dtDetection
  rw [normalize_moved hc b hl]
  cases dtAnomalies E (normalize l) al q last with
  | error e => rfl
  | ok x =>
    obtain ⟨an, md⟩ := x
    simp only [bind, Except.bind]
    rw [dtTrend_moved hD]
    cases dtTrend E l t an with
    | error e => rfl
    | ok u =>
      simp only [Except.map, moved_length]
      split
      · rfl
      · rename_i h
        simp only [pure, Except.pure]
        rw [assemble_moved hc b (not_not.1 h)]

/-- the second pass hands on the trend of the series; it is used only if nothing is flagged in the differences -/
theorem dtDetection_deltas {E : Env} (hc : 0 < c) (hD : Degrees E c) (b : ℚ) {ds : List ℚ} (hl : Varies ds) (t : List ℚ) {al : PyFloat} {q : ℚ} {nt last : Bool}
    {drows drows' : List Row} {md md' : ModelType} (h : dtDetection E ds t al q nt last = .ok (drows, md))
    (h' : dtDetection E (moved c 0 ds) (moved c b t) al q nt last = .ok (drows', md')) :
    drows' = drows.map (moveRow c 0) ∨ (∀ r ∈ drows, r.anom = false) ∧ ∀ r ∈ drows', r.anom = false := by
  by_cases hn : dtAnomalies E (normalize ds) al q last = .ok ([], md)
  · right
    have hx : ∀ {x y : List ℚ} {o s : Option (List ℚ)}, ∀ r ∈ assemble x y o s [], r.anom = false := by
      intro x y o s r hr
      unfold assemble at hr
      obtain ⟨i, -, rfl⟩ := List.mem_map.1 hr
      rfl
    obtain ⟨an, u, h1, -, rfl⟩ := dtDetection_ok h
    obtain ⟨an', u', h1', -, rfl⟩ := dtDetection_ok h'
    rw [normalize_moved hc 0 hl] at h1'
    rw [hn] at h1 h1'
    cases h1
    cases h1'
    exact ⟨hx, hx⟩
  · left
    have e : dtDetection E (moved c 0 ds) (moved c b t) al q nt last = dtDetection E (moved c 0 ds) (moved c 0 t) al q nt last := by
      unfold dtDetection
      rw [normalize_moved hc 0 hl]
      cases ha : dtAnomalies E (normalize ds) al q last with
      | error e => rfl
      | ok x =>
        obtain ⟨an, md0⟩ := x
        have hne : an ≠ [] := by
          rintro rfl
          obtain ⟨an', u', h1', -, -⟩ := dtDetection_ok h
          rw [ha] at h1'
          cases h1'
          exact hn ha
        simp only [bind, Except.bind]
        unfold dtTrend
        rw [if_pos (by simpa using hne), if_pos (by simpa using hne)]
    rw [e, dtDetection_moved hc hD 0 hl, h] at h'
    have := Except.ok.inj h'
    exact (congrArg Prod.fst this).symm

/-! ### the second pass -/

theorem diffs_moved (c b : ℚ) (l : List ℚ) : diffs (moved c b l) = scaled c (diffs l) := by
  induction l with
  | nil => rfl
  | cons a t ih =>
    cases t with
    | nil => rfl
    | cons x t =>
      have e1 : moved c b (a :: x :: t) = (c * a + b) :: (c * x + b) :: moved c b t := rfl
      have e2 : diffs ((c * a + b) :: (c * x + b) :: moved c b t) = ((c * x + b) - (c * a + b)) :: diffs ((c * x + b) :: moved c b t) := rfl
      have e3 : scaled c (diffs (a :: x :: t)) = c * (x - a) :: scaled c (diffs (x :: t)) := rfl
      rw [e1, e2, e3, ← ih, add_sub_add_right_eq_sub, ← mul_sub]
      rfl

theorem getDelta_moved (c b : ℚ) (k : Nat) (l : List ℚ) : getDelta k (moved c b l) = (getDelta k l).map (scaled c) := by
  rw [← getDelta_scaled]
  unfold getDelta
  rw [diffs_moved, diffs_scaled]

theorem deltaLoop_deltas {E : Env} (hD : Degrees E c) (n k : Nat) (l : List ℚ) :
    deltaLoop E n k (scaled c l) = (deltaLoop E n k l).map fun o => o.map fun x => (x.1, scaled c x.2) := by
  induction n generalizing k l with
  | zero => rfl
  | succ n ih =>
    have hs : E.stationary (scaled c l) = E.stationary l := by rw [← moved_zero]; exact hD.stationary 0 l
    simp only [deltaLoop, hs]
    split
    · rfl
    · rw [getDelta_scaled]
      cases getDelta k l with
      | error e => rfl
      | ok x => exact ih _ _

theorem deltaLoop_from {E : Env} {n k : Nat} {l : List ℚ} {x : Nat × List ℚ} (h : deltaLoop E n k l = .ok (some x)) : k ≤ x.1 := by
  induction n generalizing k l with
  | zero => cases h
  | succ n ih =>
    simp only [deltaLoop] at h
    split at h
    · cases h
      exact le_rfl
    · obtain ⟨y, -, h⟩ := ebind_ok.1 h
      have := ih h
      omega

/-- which differences are looked at does not depend on the scale, and they lose the zero point -/
theorem include_moved {E : Env} (hD : Degrees E c) (b : ℚ) {l : List ℚ} {k : Nat} {ds : List ℚ} (hk : k ≠ 0) :
    shouldIncludeDelta E (moved c b l) = .ok (some (k, ds)) ↔ ∃ d0, ds = scaled c d0 ∧ shouldIncludeDelta E l = .ok (some (k, d0)) := by
  unfold shouldIncludeDelta
  have e : ∀ l, deltaLoop E 3 0 l = if E.stationary l then .ok (some (0, l)) else (getDelta 0 l >>= fun vs => deltaLoop E 2 1 vs) := fun l => by
    rw [show (3 : Nat) = 2 + 1 from rfl, deltaLoop]
  rw [e, e, hD.stationary]
  split
  · constructor
    · intro h
      cases h
      exact absurd rfl hk
    · rintro ⟨d0, -, h⟩
      cases h
      exact absurd rfl hk
  · rw [getDelta_moved]
    cases getDelta 0 l with
    | error x =>
      constructor
      · intro h; cases h
      · rintro ⟨d0, -, h⟩; cases h
    | ok v =>
      simp only [Except.map, bind, Except.bind]
      rw [deltaLoop_deltas hD]
      cases deltaLoop E 2 1 v with
      | error x =>
        constructor
        · intro h; cases h
        · rintro ⟨d0, -, h⟩; cases h
      | ok o =>
        cases o with
        | none =>
          constructor
          · intro h; cases h
          · rintro ⟨d0, -, h⟩; cases h
        | some x =>
          obtain ⟨j, d1⟩ := x
          constructor
          · intro h
            cases h
            exact ⟨d1, rfl, rfl⟩
          · rintro ⟨d0, rfl, h⟩
            cases h
            rfl

theorem moveRow_zero (c : ℚ) : moveRow c 0 = scaleRow c := by
  funext r
  simp [moveRow, scaleRow]

theorem undelta_moved (c b : ℚ) (k : Nat) {vs : List ℚ} (hv : 2 ≤ vs.length) (l : List ℚ) :
    undelta k (moved c b vs) (scaled c l) = (undelta k vs l).map (scaled c) := by
  rw [← undelta_scaled]
  unfold undelta
  rw [moved_getD c b (by omega), moved_getD c b (by omega), scaled_getD, scaled_getD, add_sub_add_right_eq_sub]

theorem correctedAt_moved (c b : ℚ) {o : List ℚ} (n : List ℚ) {p : Nat} (h : p < o.length) :
    correctedAt (moved c b o) (scaled c n) p = c * correctedAt o n p + b := by
  unfold correctedAt
  split
  · rw [moved_getD c b (by omega)]
  · rw [moved_getD c b (by omega), scaled_getD]
    ring

theorem moved_rows (c b : ℚ) (rows : List Row) :
    (rows.map (moveRow c b)).map (·.value) = moved c b (rows.map (·.value)) ∧
      (rows.map (moveRow c b)).map (·.expected) = moved c b (rows.map (·.expected)) ∧
      flagged (rows.map (moveRow c b)) = flagged rows := by
  unfold moved flagged
  simp only [List.map_map]
  refine ⟨rfl, rfl, ?_⟩
  rw [List.countP_map]
  rfl

theorem mergeRows_none {rows drows : List Row} {newE newT : List ℚ} (h : ∀ r ∈ drows, r.anom = false) (hl : drows.length = rows.length) :
    mergeRows rows drows newE newT = rows := by
  refine List.ext_getElem (length_mergeRows hl) fun i h1 h2 => ?_
  rw [getElem_mergeRows hl h2, h _ (List.getElem_mem _)]
  simp

theorem mergeRows_moved (hc : 0 < c) (b : ℚ) {rows drows : List Row} (newE newT : List ℚ) (hl : drows.length = rows.length)
    (ht : (∀ r ∈ rows, r.trend.isSome = true) ∨ ∀ r ∈ rows, r.trend = none) :
    mergeRows (rows.map (moveRow c b)) (drows.map (scaleRow c)) (scaled c newE) (scaled c newT) = (mergeRows rows drows newE newT).map (moveRow c b) := by
  have hl' : (drows.map (scaleRow c)).length = (rows.map (moveRow c b)).length := by simpa using hl
  refine List.ext_getElem (by rw [length_mergeRows hl', List.length_map, List.length_map, length_mergeRows hl]) fun i h1 h2 => ?_
  have hi : i < rows.length := by simpa [length_mergeRows hl] using h2
  rw [getElem_mergeRows hl' (by simpa using hi)]
  simp only [List.getElem_map]
  rw [getElem_mergeRows hl hi]
  rw [(moved_rows c b rows).2.1, correctedAt_moved c b _ (by simpa using hi)]
  have a1 : (moveRow c b rows[i]).anom = rows[i].anom := rfl
  have a2 : (scaleRow c (drows[i]'(by omega))).anom = (drows[i]'(by omega)).anom := rfl
  rw [a1, a2]
  split
  · have htr : (if (moveRow c b rows[i]).trend.isSome then
        some (correctedAt ((rows.map (moveRow c b)).map fun r => r.trend.getD 0) (scaled c newT) i) else none) =
        (if rows[i].trend.isSome then some (correctedAt (rows.map fun r => r.trend.getD 0) newT i) else none).map fun x => c * x + b := by
      rcases ht with ht | ht
      · have e : ((rows.map (moveRow c b)).map fun r => r.trend.getD 0) = moved c b (rows.map fun r => r.trend.getD 0) := by
          unfold moved
          rw [List.map_map, List.map_map]
          refine List.map_congr_left fun r hr => ?_
          have := ht r hr
          simp only [Function.comp, moveRow]
          cases h : r.trend with
          | none => rw [h] at this; cases this
          | some x => rfl
        have h3 := ht rows[i] (List.getElem_mem _)
        have h4 : (moveRow c b rows[i]).trend.isSome = true := by
          simpa [moveRow] using h3
        rw [if_pos h4, if_pos h3, e, correctedAt_moved c b _ (by simpa using hi)]
        rfl
      · have h3 := ht rows[i] (List.getElem_mem _)
        simp [moveRow, h3]
    rw [htr]
    simp only [mergedRow, moveRow, scaleRow, add_lt_add_iff_right, add_le_add_iff_right, mul_lt_mul_iff_right₀ hc, mul_le_mul_iff_right₀ hc]
  · rfl

theorem merge_moved {E : Env} (hc : 0 < c) (hD : Degrees E c) (b : ℚ) {rows out out' : List Row} {s t : List ℚ} (hs : 2 ≤ s.length) (hrows : rows.map (·.value) = s)
    (ht : (∀ r ∈ rows, r.trend.isSome = true) ∨ ∀ r ∈ rows, r.trend = none)
    (hv : ∀ k ds, shouldIncludeDelta E s = .ok (some (k, ds)) → Varies ds) {ratio : ℚ} {al : PyFloat} {nt last : Bool}
    (h : mergeWithDelta E rows s ratio (fun x r => dtDetection E x t al r nt last) = .ok out)
    (h' : mergeWithDelta E (rows.map (moveRow c b)) (moved c b s) ratio (fun x r => dtDetection E x (moved c b t) al r nt last) = .ok out') :
    out' = out.map (moveRow c b) := by
  have hfl := (moved_rows c b rows).2.2
  have hlen : rows.length = s.length := by rw [← hrows, List.length_map]
  rcases mergeWithDelta_full h with ⟨rfl, a1⟩ | ⟨k, ds, drows, md, newE, newT, a1, a2, a3, a4, a5, a6, a7, rfl⟩ <;>
    rcases mergeWithDelta_full h' with ⟨rfl, b1⟩ | ⟨k', ds', drows', md', newE', newT', b1, b2, b3, b4, b5, b6, b7, rfl⟩
  · rfl
  · obtain ⟨d0, rfl, c1⟩ := (include_moved hD b b2).1 b1
    have := a1 k' d0 c1 b2
    rw [scaled_length, hfl] at b4
    omega
  · have := b1 k (scaled c ds) ((include_moved hD b a2).2 ⟨ds, rfl, a1⟩) a2
    rw [scaled_length, hfl] at this
    omega
  · obtain ⟨d0, rfl, c1⟩ := (include_moved hD b b2).1 b1
    rw [a1] at c1
    cases c1
    rw [scaled_length] at b5
    rw [hfl, ← moved_zero] at b5
    have l1 : drows.length = rows.length := by rw [(frameOk_dt (dir := True) a5).len, a3, hlen]
    rcases dtDetection_deltas hc hD b (hv _ _ a1) t a5 b5 with rfl | ⟨n1, n2⟩
    · rw [moveRow_zero] at b6 b7 ⊢
      obtain ⟨-, w2, w3, -⟩ := scaled_rows c drows
      rw [w2, (moved_rows c b rows).1, undelta_moved c b _ (by rw [List.length_map, hlen]; exact hs), a6] at b6
      rw [w3, (moved_rows c b rows).1, undelta_moved c b _ (by rw [List.length_map, hlen]; exact hs), a7] at b7
      cases b6
      cases b7
      exact mergeRows_moved hc b newE newT l1 ht
    · have l2 : drows'.length = (rows.map (moveRow c b)).length := by
        rw [(frameOk_dt (dir := True) b5).len, List.length_map, moved_length, a3, hlen]
      rw [mergeRows_none n1 l1, mergeRows_none n2 l2]

theorem run_moved {E : Env} (hc : 0 < c) (hD : Degrees E c) (b : ℚ) {M M' : Model} (hal : M'.alpha = M.alpha) (hnt : M'.needTrend = M.needTrend)
    {s : List ℚ} (hl : 2 ≤ s.length) {r : ℚ} {p : Nat} {last : Bool} (hp : ¬ 1 < p) (hs : shouldTriggerSr E M.gran M.interval s = false)
    (hs' : shouldTriggerSr E M'.gran M'.interval (moved c b s) = false) (hv : Varies s)
    (hv' : ∀ k ds, shouldIncludeDelta E s = .ok (some (k, ds)) → Varies ds) {rows rows' : List Row} {md md' : ModelType}
    (h : M.run E s r p last = .ok (rows, md)) (h' : M'.run E (moved c b s) r p last = .ok (rows', md')) :
    rows' = rows.map (moveRow c b) ∧ md' = md ∧ ∀ x ∈ rows, x.Dir := by
  unfold Model.run at h h'
  simp only [if_neg hp, hs, hs', hal, hnt, Bool.false_eq_true, if_false] at h h'
  obtain ⟨t, t1, h⟩ := ebind_ok.1 h
  obtain ⟨t', t1', h'⟩ := ebind_ok.1 h'
  rw [trendDetection_moved hD, t1] at t1'
  cases t1'
  obtain ⟨⟨rows0, m0⟩, a1, h⟩ := ebind_ok.1 h
  obtain ⟨out, a2, h⟩ := ebind_ok.1 h
  obtain ⟨⟨rows0', m0'⟩, b1, h'⟩ := ebind_ok.1 h'
  obtain ⟨out', b2, h'⟩ := ebind_ok.1 h'
  have h := epure_ok.1 h
  have h' := epure_ok.1 h'
  simp only [Prod.mk.injEq] at h h'
  obtain ⟨rfl, rfl⟩ := h
  obtain ⟨rfl, rfl⟩ := h'
  rw [dtDetection_moved hc hD b hv, a1] at b1
  cases b1
  have f := frameOk_dt (dir := True) a1
  refine ⟨merge_moved hc hD b hl f.values ?_ hv' a2 b2, rfl, ?_⟩
  · cases hn : M.needTrend with
    | true => exact .inl fun x hx => (f.trendy x hx).2 hn
    | false =>
      refine .inr fun x hx => ?_
      have := f.trendy x hx
      rw [hn] at this
      cases e : x.trend with
      | none => rfl
      | some y => rw [e] at this; exact absurd (this.1 rfl) (by simp)
  · refine (frameOk_merge f (fun ds q drows md _ hd => ?_) a2).direction trivial
    exact (frameOk_dt (dir := True) hd).len

/-! ### the calls -/

theorem Trace.dt {E : Env} {d : Detector} {data : DataArg} {params : Params} {items : List Item} (T : Trace E d data params items)
    {n : Int} (h : DtRequest params n) :
    (∀ l, shouldTriggerSr E T.M.gran T.M.interval l = false) ∧ ¬ 1 < T.period ∧ T.period = n.toNat ∧
      T.M.run E T.M.values T.ratio T.period (isLatest T.mode) = .ok (T.frame0, T.model) := by
  have hsel := T.selected
  obtain ⟨-, hper⟩ := paramPeriod_named T.parsed h.period
  have hp : T.period = n.toNat := by
    rcases hsel.per with e | ⟨e, -⟩ <;> rw [hper] at e
    · exact (Option.some.inj e).symm
    · cases e
  have hle : ¬ 1 < T.period := by
    have := h.small
    omega
  have hauto : T.M.mode = .auto := by
    rw [T.configured.mode]
    have hnone : ∀ key, (params key = none ∨ params key = some .none) → presentKey params key = none := by
      intro key h
      unfold presentKey
      rcases h with h | h <;> rw [h]
    rcases T.parsed.fill with ⟨s, h', -⟩ | ⟨-, -, h'⟩ | ⟨s, -, h', -⟩
    · rw [hnone _ h.unfilled.1] at h'; cases h'
    · cases h2 : T.mp.fillMode with
      | none => rfl
      | some x => rw [h2] at h'; cases h'
    · rw [hnone _ h.unfilled.2] at h'; cases h'
  have hfull : T.full = none := by
    rcases hsel.fills with ⟨h1 | h1, -⟩ | ⟨-, h1⟩
    · exact absurd h1 hle
    · rw [hauto] at h1
      unfold FillUpMode.always at h1
      simp at h1
    · exact h1
  have hout := hsel.out
  have hrun := hsel.run
  rw [hfull] at hout hrun
  dsimp only at hout
  rw [← hout] at hrun
  refine ⟨fun l => ?_, hle, hp, hrun⟩
  rw [T.configured.gran, T.configured.interval]
  exact not_fine T.parsed h.coarse l

theorem moved_traces {E : Env} (hE : E.WF) (hc : 0 < c) (hD : Degrees E c) {d : Detector} {data data' : DataArg} {params : Params} {n : Int} {m : DetectType}
    (hq : DtRequest params n) (ht : MovedData E.parseFloat c b data data') (hR : Varying E data) (hm : InMode d params m) {items items' : List Item}
    (T : Trace E d data params items) (T' : Trace E d data' params items') :
    T'.frame0 = T.frame0.map (moveRow c b) ∧ T'.model = T.model ∧ T'.period = T.period ∧
      rowStamps T'.hasTs T'.rows = rowStamps T.hasTs T.rows ∧ paramSens T'.after = paramSens T.after ∧
      T'.mp.granularity = T.mp.granularity ∧ ∀ r ∈ T.frame0, r.Dir := by
  obtain ⟨s1, p1, q1, r1⟩ := T.dt hq
  obtain ⟨s2, p2, q2, r2⟩ := T'.dt hq
  have ht0 := ht
  rw [T.isFrame, T'.isFrame] at ht0
  obtain ⟨t1, t2, t3, l, l1, l2⟩ := ht0
  have hlen : T'.rows.length = T.rows.length := by simpa using congrArg List.length t3
  have hv : T.M.values = l := values_eq T.validated.values (mapM_finite_fin _) l1 fun i q h => (l2 i q h).1
  have hv' : T'.M.values = moved c b l := values_eq T'.validated.values (mapM_finite_fin _) (by rw [moved_length, hlen, l1]) fun i q h => by
    unfold moved at h
    rw [List.getElem?_map] at h
    cases h4 : l[i]? with
    | none => rw [h4] at h; cases h
    | some x =>
      rw [h4] at h
      cases h
      exact (l2 i x h4).2
  have hal : T'.M.alpha = T.M.alpha := by
    rw [T.configured.alpha, T'.configured.alpha]
    have a := T.parsed.alpha
    have b := T'.parsed.alpha
    rcases a with ⟨a1, a2⟩ | ⟨v, f, a1, a3, -, a2⟩ <;> rcases b with ⟨b1, b2⟩ | ⟨w, g, b1, b3, -, b2⟩ <;> rw [a1] at b1 <;> cases b1 <;> rw [a2, b2]
    rw [a3] at b3
    cases b3
    rfl
  have hnt : T'.M.needTrend = T.M.needTrend := by
    rw [T.configured.trend, T'.configured.trend]
    obtain ⟨x, -, x2, x3⟩ := T.parsed.boundary
    obtain ⟨y, -, y2, y3⟩ := T'.parsed.boundary
    have e : y = x := by
      rcases x3 with ⟨x3, x4⟩ | ⟨s, x3, x4⟩ <;> rcases y3 with ⟨y3, y4⟩ | ⟨s', y3, y4⟩ <;> rw [x3] at y3 <;> cases y3
      · rw [x4, y4]
      · rw [x4] at y4
        exact (Option.some.inj y4).symm
    rw [x2, y2, e]
  have hgr : T'.mp.granularity = T.mp.granularity := by
    rcases T.parsed.gran with ⟨a1, a2⟩ | ⟨f, a1, a2⟩ <;> rcases T'.parsed.gran with ⟨b1, b2⟩ | ⟨g, b1, b2⟩ <;> rw [a1] at b1 <;> cases b1
    · rw [a2, b2]
    · exact Option.some.inj (b2.symm.trans a2)
  have hra : T'.ratio = T.ratio := by
    have h1 := T.selected.finite
    have h2 := T'.selected.finite
    have e : T'.mp.ratio = T.mp.ratio := by
      rcases T.parsed.ratio with ⟨a1, a2⟩ | ⟨f, a1, -, -, a2⟩ <;> rcases T'.parsed.ratio with ⟨b1, b2⟩ | ⟨g, b1, -, -, b2⟩ <;>
        rw [a1] at b1 <;> cases b1 <;> rw [a2, b2]
    have e2 : T'.M.majority = T.M.majority := by
      rw [T.configured.majority, T'.configured.majority, hv, hv', hD.histogram]
    have e3 : T'.M.ratio = T.M.ratio := by rw [T.configured.ratio, T'.configured.ratio, e]
    rw [T'.mode_eq hm] at h2
    rw [T.mode_eq hm] at h1
    have : T'.M.maxRatio (isLatest (.dtype m)) = T.M.maxRatio (isLatest (.dtype m)) := by
      unfold Model.maxRatio
      rw [e2, e3]
    rw [this, h1] at h2
    exact (PyFloat.fin.inj h2).symm
  rw [T.mode_eq hm, hv] at r1
  rw [T'.mode_eq hm, hra, hv', q2, ← q1] at r2
  obtain ⟨g1, g2⟩ := hR l (by rw [T.isFrame]; exact ⟨l1, fun i q h => (l2 i q h).1⟩)
  obtain ⟨k1, k2, k3⟩ := run_moved hc hD b hal hnt (by
    have := T.len hE
    omega) p1 (s1 l) (s2 _) g1 g2 r1 r2
  refine ⟨k1, k2, q2.trans q1.symm, ?_, ?_, hgr, k3⟩
  · unfold rowStamps
    rw [t1, t3, hlen]
  · unfold paramSens
    rcases T.parsed.sensitivity with ⟨a1, a2⟩ | ⟨v, i, a1, -, -, -, a2⟩ <;> rcases T'.parsed.sensitivity with ⟨b1, b2⟩ | ⟨w, j, b1, -, -, -, b2⟩ <;>
      rw [a1] at b1 <;> cases b1 <;> rw [a2, b2]

theorem point_moved (hc : 0 < c) {r : Row} {o o' : Out} (h : OutOk (clearNear r) o) (h' : OutOk (clearNear (moveRow c b r)) o') (hf : r.Flags) (hd : r.Dir)
    (ha : o.anom = true ↔ r.anom = true ∧ 1 / 10 ^ 8 ≤ |r.value - r.expected|)
    (ha' : o'.anom = true ↔ (moveRow c b r).anom = true ∧ 1 / 10 ^ 8 ≤ |(moveRow c b r).value - (moveRow c b r).expected|)
    (hn : |r.value - r.expected| < 1 / 10 ^ 8 ↔ c * |r.value - r.expected| < 1 / 10 ^ 8) :
    o'.expected = c * o.expected + b ∧ o'.pos = o.pos ∧ o'.neg = o.neg ∧ o'.anom = o.anom := by
  have ev : ∀ r : Row, (clearNear r).value = r.value ∧ (clearNear r).expected = r.expected := by
    intro r
    unfold clearNear
    split <;> exact ⟨rfl, rfl⟩
  have hgap : |(moveRow c b r).value - (moveRow c b r).expected| = c * |r.value - r.expected| := by
    have : (moveRow c b r).value - (moveRow c b r).expected = c * (r.value - r.expected) := by
      unfold moveRow
      ring
    rw [this, abs_mul, abs_of_pos hc]
  have hflag : (moveRow c b r).anom = r.anom := rfl
  have hanom : o'.anom = o.anom := by
    rw [hgap, hflag, ← not_lt, ← hn, not_lt, ← ha] at ha'
    exact Bool.eq_iff_iff.2 ha'
  have r1 : (clearNear r).Ready := clearNear_ready hf
  have r2 : (clearNear (moveRow c b r)).Ready := clearNear_ready ⟨hf.anom, hf.excl⟩
  have d1 : (clearNear r).Dir := clearNear_dir hd
  have d2 : (clearNear (moveRow c b r)).Dir := clearNear_dir
    ⟨fun x => by have := hd.pos x; unfold moveRow; nlinarith, fun x => by have := hd.neg x; unfold moveRow; nlinarith⟩
  have p1 := fun x => r1.above d1 (h.posDir x)
  have n1 := fun x => r1.below ⟨fun y => .inl (d1.pos y), d1.neg⟩ (h.negDir x)
  have p2 := fun x => r2.above d2 (h'.posDir x)
  have n2 := fun x => r2.below ⟨fun y => .inl (d2.pos y), d2.neg⟩ (h'.negDir x)
  rw [(ev r).1, (ev r).2] at p1 n1
  rw [(ev _).1, (ev _).2] at p2 n2
  have p2 : o'.pos = true → r.expected < r.value := fun x => by
    have := p2 x
    unfold moveRow at this
    dsimp only at this
    exact lt_of_mul_lt_mul_left (by linarith) hc.le
  have n2 : o'.neg = true → r.value < r.expected := fun x => by
    have := n2 x
    unfold moveRow at this
    dsimp only at this
    exact lt_of_mul_lt_mul_left (by linarith) hc.le
  have f1 := h.flags
  have f2 := h'.flags
  refine ⟨?_, ?_, ?_, hanom⟩
  · rw [h.expected, h'.expected, (ev _).2, (ev _).2]
    rfl
  · rw [f1, f2] at hanom
    cases e1 : o.pos <;> cases e2 : o'.pos <;> cases e3 : o.neg <;> cases e4 : o'.neg <;> simp_all <;> linarith
  · rw [f1, f2] at hanom
    cases e1 : o.pos <;> cases e2 : o'.pos <;> cases e3 : o.neg <;> cases e4 : o'.neg <;> simp_all <;> linarith

theorem Trace.item_window {E : Env} (hE : E.WF) {d : Detector} {data : DataArg} {params : Params} {items : List Item} (T : Trace E d data params items)
    {m : DetectType} (hm : InMode d params m) :
    T.frame0.length = T.rows.length ∧ items.length = (match m with | .ENTIRE => T.rows.length | .LATEST => 1) ∧ ∀ k it, items[k]? = some it →
      Concerns m T.rows.length k (k + (T.rows.length - items.length)) ∧
      ItemOk T.period (T.frame0.map clearNear) (rowStamps T.hasTs T.rows)
        (match m with | .ENTIRE => none | .LATEST => some (suggestedWindow T.period T.mp.granularity)) (k + (T.rows.length - items.length)) it := by
  have hf := T.finished
  rw [T.mode_eq hm] at hf
  have hs := (paramSens_range T.parsed).2
  have hlen := T.len hE
  cases m with
  | ENTIRE =>
    obtain ⟨h1, h2, h3⟩ := finish_entire hs (T.ready hE) hf
    rw [length_rowStamps, List.length_map] at h1
    rw [List.length_map] at h2
    refine ⟨h1, h2.trans h1, fun k it hk => ?_⟩
    rw [show k + (T.rows.length - items.length) = k by omega]
    exact ⟨rfl, h3 k it hk⟩
  | LATEST =>
    obtain ⟨h1, it', rfl, h2⟩ := finish_latest hs (T.ready hE) hf
    rw [length_rowStamps, List.length_map] at h1
    refine ⟨h1, rfl, fun k it hk => ?_⟩
    obtain ⟨hk0, -⟩ := List.getElem?_eq_some_iff.1 hk
    have hk0 : k = 0 := by simpa using hk0
    subst hk0
    simp only [List.getElem?_cons_zero, Option.some.injEq] at hk
    subst hk
    rw [List.length_map, h1] at h2
    rw [List.length_singleton, Nat.zero_add]
    exact ⟨⟨rfl, by omega⟩, h2⟩

/-- **C137** Scale and zero point of the values. Two data frames have the same timestamps and a value `x` of the first is `c * x + b` in the second, with
`c > 0`; the request asks for `sensitivity` 100 and is one that the dynamic threshold model answers, and neither the values nor the differences that are looked
at are all equal. If both are answered, and no value is nearer than `1e-8` to its expected value on one scale only, then the same points are reported as
anomalies, with the same directions, period and suggested window, and the expected values are `c * e + b`. -/
theorem C137_degrees {E : Env} (hE : E.WF) {c b : ℚ} (hc : 0 < c) (hD : Degrees E c) {W : Wild} {d : Detector} {data data' : DataArg} {params : Params}
    (hno : params "indices" = none) (hf : FiniteFill E data params) (hf' : FiniteFill E data' params) {m : DetectType} (hm : InMode d params m)
    {v : PyVal} (hs : params "sensitivity" = some v) (hv : IsInt v 100) {n : Int} (hq : DtRequest params n)
    (ht : MovedData E.parseFloat c b data data') (hR : Varying E data) {items items' : List Item} (h : (predict E W d data params).outcome = .ok items)
    (h' : (predict E W d data' params).outcome = .ok items') (hn : SameSide E.parseFloat c data items) :
    List.Forall₂ (MovedItem c b) items items' := by
  obtain ⟨T⟩ := predict_trace hE hno hf h
  obtain ⟨T'⟩ := predict_trace hE hno hf' h'
  obtain ⟨e1, -, e3, e4, -, e6, e7⟩ := moved_traces hE hc hD hq ht hR hm T T'
  obtain ⟨a1, a2, a3⟩ := T.item_window hE hm
  obtain ⟨b1, b2, b3⟩ := T'.item_window hE hm
  obtain ⟨-, a4⟩ := T.full_sensitivity hE hs hv hm
  obtain ⟨-, b4⟩ := T'.full_sensitivity hE hs hv hm
  have hrl : T'.rows.length = T.rows.length := by
    rw [← b1, ← a1, e1, List.length_map]
  have hil : items'.length = items.length := by rw [a2, b2, hrl]
  rw [hrl, hil, e1, e3, e4, e6] at b3
  rw [e1, hrl] at b4
  refine List.forall₂_iff_get.2 ⟨hil.symm, fun k h1 h2 => ?_⟩
  have g1 := List.getElem?_eq_getElem h1
  have g2 := List.getElem?_eq_getElem h2
  obtain ⟨c1, ⟨r, o, ts, i1, i2, i3, i4⟩⟩ := a3 k _ g1
  obtain ⟨c2, ⟨r', o', ts', j1, j2, j3, j4⟩⟩ := b3 k _ g2
  obtain ⟨i, ri, k1, k2, k3⟩ := a4 k _ g1
  obtain ⟨j, rj, l1, l2, l3⟩ := b4 k _ g2
  cases concerns_unique c1 k1
  cases concerns_unique c1 l1
  rw [List.getElem?_map, k2] at i1
  cases i1
  rw [List.getElem?_map, List.getElem?_map, k2] at j1
  cases j1
  rw [List.getElem?_map, k2] at l2
  cases l2
  rw [i3] at j3
  cases j3
  have hmem := List.mem_of_getElem? k2
  have hexp : items[k].expected = ri.expected := by
    rw [i4]
    change o.expected = _
    rw [i2.expected]
    unfold clearNear
    split <;> rfl
  have hside : |ri.value - ri.expected| < 1 / 10 ^ 8 ↔ c * |ri.value - ri.expected| < 1 / 10 ^ 8 := by
    rw [T.isFrame] at hn
    have h5 := (T.frameOk hE).values
    have ht0 := ht
    rw [T.isFrame, T'.isFrame] at ht0
    obtain ⟨-, -, -, l, m1, m2⟩ := ht0
    have hv : T.M.values = l := values_eq T.validated.values (mapM_finite_fin _) m1 fun i q h => (m2 i q h).1
    have hlv : l[k + (T.rows.length - items.length)]? = some ri.value := by
      rw [← hv, ← h5, List.getElem?_map, k2]
      rfl
    have := hn k _ ri.value g1 (m2 _ _ hlv).1
    rwa [hexp] at this
  rw [i4] at k3
  rw [j4] at l3
  obtain ⟨x1, x2, x3, x4⟩ := point_moved hc i2 j2 ((T.frameOk hE).flags _ hmem) (e7 _ hmem) k3 l3 hside
  change MovedItem c b items[k] items'[k]
  rw [i4, j4]
  exact ⟨rfl, x1, x2, x3, x4, rfl, rfl⟩

/-- **C137** (another unit, the same zero point): with V1 boundaries and any `sensitivity`, when the values of the second data frame are `c > 0` times those of
the first, both margins too are multiplied by `c`. -/
theorem C137_unit {E : Env} (hE : E.WF) {c : ℚ} (hc : 0 < c) (hD : Degrees E c) {W : Wild} {d : Detector} {data data' : DataArg} {params : Params}
    (hno : params "indices" = none) (hf : FiniteFill E data params) (hf' : FiniteFill E data' params) {m : DetectType} (hm : InMode d params m)
    {n : Int} (hq : DtRequest params n) (hb : VersionOk (params "boundaryVersion") .V1)
    (ht : MovedData E.parseFloat c 0 data data') (hR : Varying E data) {items items' : List Item} (h : (predict E W d data params).outcome = .ok items)
    (h' : (predict E W d data' params).outcome = .ok items') (hn : SameSide E.parseFloat c data items) :
    List.Forall₂ (ScaledItem c) items items' := by
  obtain ⟨T⟩ := predict_trace hE hno hf h
  obtain ⟨T'⟩ := predict_trace hE hno hf' h'
  obtain ⟨e1, e2, e3, e4, e5, e6, -⟩ := moved_traces hE hc hD hq ht hR hm T T'
  have f1 := T.finished
  have f2 := T'.finished
  rw [T.mode_eq hm, parsed_version T.parsed hb] at f1
  rw [T'.mode_eq hm, parsed_version T'.parsed hb, e1, e2, e3, e4, e5, e6, moveRow_zero] at f2
  refine finish_scaled hc f1 f2 fun j a r ha hr => ?_
  rw [T.isFrame] at hn
  have h5 := (T.frameOk hE).values
  have ht0 := ht
  rw [T.isFrame, T'.isFrame] at ht0
  obtain ⟨-, -, -, l, m1, m2⟩ := ht0
  have hv : T.M.values = l := values_eq T.validated.values (mapM_finite_fin _) m1 fun i q h => (m2 i q h).1
  rw [(T.item_window hE hm).1] at hr
  have hlv : l[j + (T.rows.length - items.length)]? = some r.value := by
    rw [← hv, ← h5, List.getElem?_map, hr]
    rfl
  have := hn j a r.value ha (m2 _ _ hlv).1
  have e : EPS = 1 / 10 ^ 8 := by
    unfold EPS
    norm_num
  rw [e]
  exact this

/-! ### concrete cases -/

theorem rows_moved (parse : String → Option PyFloat) (c b : ℚ) (vs : List ℚ) (step : Int) :
    MovedData parse c b (.frame true true (metreRows vs step)) (.frame true true (metreRows (moved c b vs) step)) := by
  refine ⟨rfl, rfl, ?_, vs, by simp [metreRows], fun i q h => ⟨unitRows_value h _, unitRows_value ?_ _⟩⟩
  · unfold metreRows moved
    rw [List.zipIdx_map, List.map_map, List.map_map, List.map_map]
    rfl
  · unfold moved
    rw [List.getElem?_map, h]
    rfl

theorem demoEnv_degrees (c : ℚ) : Degrees demoEnv c where
  trend b l p := by
    change Except.ok (List.replicate (moved c b l).length (npMean (moved c b l))) = Except.ok (moved c b (List.replicate l.length (npMean l)))
    rw [moved_length]
    by_cases h : l = []
    · subst h; rfl
    · rw [npMean_moved c b h]
      unfold moved
      rw [List.map_replicate]
  stationary _ _ := rfl
  histogram _ _ := rfl

/-- daily temperatures in degrees Celsius, with two hot days -/
def celsius : List ℚ := [0, 1, 2, 1, 0, 1, 2, 1, 0, 1, 2, 1, 0, 1, 20, 1, 0, 1, 2, 20]

/-- a request about them, with the given `sensitivity` -/
def daily (s : Int) : Params := optParams "daily" 0 [("sensitivity", .int s), ("maxAnomalyRatio", .float (.fin (1 / 10)))]

theorem daily_fill (E : Env) (data : DataArg) {s : Int} : FiniteFill E data (daily s) := .inl ⟨(by intro h; cases h), fun f h => by cases h⟩

theorem daily_request (s : Int) : DtRequest (daily s) 0 :=
  ⟨⟨.int 0, by rfl, .int 0⟩, by decide, fun h => by rcases h with ⟨h, -⟩ | ⟨h, -⟩ <;> exact absurd (PyVal.str.inj (Option.some.inj h)) (by decide), ⟨.inl (by rfl), .inl (by rfl)⟩⟩

theorem daily_varying : Varying demoEnv (.frame true true (metreRows celsius 86400)) := by
  intro s hs
  have e : s = celsius := by
    obtain ⟨h1, h2⟩ := hs
    have hl : s.length = celsius.length := by simpa [metreRows] using h1
    refine List.ext_getElem hl fun i hi hj => ?_
    obtain ⟨v, a, r1⟩ := h2 i _ (List.getElem?_eq_getElem hi)
    obtain ⟨w, a', r2⟩ := unitRows_value (step := 86400) (List.getElem?_eq_getElem hj) demoEnv.parseFloat
    rw [a] at a'
    cases a'
    exact reads_unique r1 r2
  subst e
  refine ⟨⟨0, by decide, 1, by decide, by decide⟩, fun k ds h => ?_⟩
  have key : (match shouldIncludeDelta demoEnv celsius with | .ok (some (_, ds)) => ds.any fun x => ds.any fun y => decide (x ≠ y) | _ => true) = true := by
    decide +kernel
  rw [h] at key
  obtain ⟨x, hx, hy⟩ := List.any_eq_true.1 key
  obtain ⟨y, hy, hxy⟩ := List.any_eq_true.1 hy
  exact ⟨x, hx, y, hy, of_decide_eq_true hxy⟩

/-- **C137** (the zero point decides below `sensitivity` 100): there is a library to which the scale makes no difference, and a series of 20 values in which two
anomalies are reported at `sensitivity` 90 when it is given in degrees Celsius and none when each value is raised by 273, all else being the same. -/
theorem C137_zero : ∃ (E : Env) (l : List ℚ), E.WF ∧ Degrees E 1 ∧ DtRequest (daily 90) 0 ∧ Varying E (.frame true true (metreRows l 86400)) ∧
    flaggedIn (predict E demoWild entireDetector (.frame true true (metreRows l 86400)) (daily 90)) =
      some (List.replicate 14 false ++ [true, false, false, false, false, true]) ∧
    flaggedIn (predict E demoWild entireDetector (.frame true true (metreRows (moved 1 273 l) 86400)) (daily 90)) = some (List.replicate 20 false) := by
  refine ⟨demoEnv, celsius, demoEnv_WF, demoEnv_degrees 1, daily_request 90, daily_varying, ?_, ?_⟩ <;> decide +kernel

/-- `C137_degrees` in ENTIRE mode: Celsius and Fahrenheit, with two anomalies -/
example : ∃ items items' : List Item,
    (predict demoEnv demoWild entireDetector (.frame true true (metreRows celsius 86400)) (daily 100)).outcome = .ok items ∧
    (predict demoEnv demoWild entireDetector (.frame true true (metreRows (moved (9 / 5) 32 celsius) 86400)) (daily 100)).outcome = .ok items' ∧
    items.map (·.anom) = List.replicate 14 false ++ [true, false, false, false, false, true] ∧ List.Forall₂ (MovedItem (9 / 5) 32) items items' := by
  obtain ⟨items, h1, h2⟩ := answered_of_flags (r := predict demoEnv demoWild entireDetector (.frame true true (metreRows celsius 86400)) (daily 100))
    (l := List.replicate 14 false ++ [true, false, false, false, false, true]) (by decide +kernel)
  obtain ⟨items', h3, -⟩ := answered_of_flags (r := predict demoEnv demoWild entireDetector (.frame true true (metreRows (moved (9 / 5) 32 celsius) 86400)) (daily 100))
    (l := List.replicate 14 false ++ [true, false, false, false, false, true]) (by decide +kernel)
  exact ⟨items, items', h1, h3, h2, C137_degrees demoEnv_WF (by norm_num) (demoEnv_degrees _) (by rfl) (daily_fill _ _) (daily_fill _ _) (.inl (by rfl))
    (v := .int 100) (by rfl) (.int 100) (daily_request 100) (rows_moved _ _ _ _ _) daily_varying h1 h3 (sameSide_of (by decide +kernel) h1 _)⟩

/-- `C137_degrees` in LATEST mode: the last day is an anomaly on both scales -/
example : ∃ items items' : List Item,
    (predict demoEnv demoWild latestDetector (.frame true true (metreRows celsius 86400)) (daily 100)).outcome = .ok items ∧
    (predict demoEnv demoWild latestDetector (.frame true true (metreRows (moved (9 / 5) 32 celsius) 86400)) (daily 100)).outcome = .ok items' ∧
    items.map (·.anom) = [true] ∧ List.Forall₂ (MovedItem (9 / 5) 32) items items' := by
  obtain ⟨items, h1, h2⟩ := answered_of_flags (r := predict demoEnv demoWild latestDetector (.frame true true (metreRows celsius 86400)) (daily 100))
    (l := [true]) (by decide +kernel)
  obtain ⟨items', h3, -⟩ := answered_of_flags (r := predict demoEnv demoWild latestDetector (.frame true true (metreRows (moved (9 / 5) 32 celsius) 86400)) (daily 100))
    (l := [true]) (by decide +kernel)
  exact ⟨items, items', h1, h3, h2, C137_degrees demoEnv_WF (by norm_num) (demoEnv_degrees _) (by rfl) (daily_fill _ _) (daily_fill _ _) (.inl (by rfl))
    (v := .int 100) (by rfl) (.int 100) (daily_request 100) (rows_moved _ _ _ _ _) daily_varying h1 h3 (sameSide_of (by decide +kernel) h1 _)⟩

/-- `C137_unit`: the same series in tenths of a degree, at `sensitivity` 90 -/
example : ∃ items items' : List Item,
    (predict demoEnv demoWild entireDetector (.frame true true (metreRows celsius 86400)) (daily 90)).outcome = .ok items ∧
    (predict demoEnv demoWild entireDetector (.frame true true (metreRows (moved 10 0 celsius) 86400)) (daily 90)).outcome = .ok items' ∧
    items.map (·.anom) = List.replicate 14 false ++ [true, false, false, false, false, true] ∧ List.Forall₂ (ScaledItem 10) items items' := by
  obtain ⟨items, h1, h2⟩ := answered_of_flags (r := predict demoEnv demoWild entireDetector (.frame true true (metreRows celsius 86400)) (daily 90))
    (l := List.replicate 14 false ++ [true, false, false, false, false, true]) (by decide +kernel)
  obtain ⟨items', h3, -⟩ := answered_of_flags (r := predict demoEnv demoWild entireDetector (.frame true true (metreRows (moved 10 0 celsius) 86400)) (daily 90))
    (l := List.replicate 14 false ++ [true, false, false, false, false, true]) (by decide +kernel)
  exact ⟨items, items', h1, h3, h2, C137_unit demoEnv_WF (by norm_num) (demoEnv_degrees _) (by rfl) (daily_fill _ _) (daily_fill _ _) (.inl (by rfl))
    (daily_request 90) (.inl ⟨.inl (by rfl), rfl⟩) (rows_moved _ _ _ _ _) daily_varying h1 h3 (sameSide_of (by decide +kernel) h1 _)⟩

end Verif
