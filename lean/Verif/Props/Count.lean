import Verif.Props.Sparse
import Verif.Uni.Double

/-!
# How many anomalies can be reported (C20)
-/

namespace Verif

open Spec

/-- flagged rows -/
def flagged (rows : List Row) : Nat := rows.countP (·.anom)

theorem flagged_filter (rows : List Row) : (rows.filter (·.anom)).length = flagged rows :=
  (List.countP_eq_length_filter ..).symm

theorem flagged_assemble (values expected : List ℚ) (trend score : Option (List ℚ)) (an : List Nat) :
    flagged (assemble values expected trend score an) ≤ an.length := by
  unfold flagged assemble
  rw [List.countP_map, List.countP_eq_length_filter]
  refine ((List.nodup_range.filter _).subperm ?_).length_le
  intro i hi
  simpa using (List.mem_filter.1 hi).2

theorem length_detectFuse (n maxO : Nat) (u l : List (List Nat)) : (detectFuse n maxO u l).length ≤ 2 * maxO := by
  unfold detectFuse directionAnomalies rankTake
  rw [List.length_append]
  have h1 : (((collect n u 0 []).insertionSort fun a b => a.2 ≤ b.2).map (·.1) |>.take maxO).length ≤ maxO :=
    List.length_take_le ..
  refine Nat.le_trans (Nat.add_le_add h1 (Nat.le_trans (List.length_filter_le ..) (List.length_take_le ..))) ?_
  omega

/-- `max(ceil(n * r), 1)` -/
def allowance (n : Nat) (r : ℚ) : Nat := max ⌈(n : ℚ) * r⌉.toNat 1

/-- the same in doubles -/
def dAllowance (n : Nat) (r : ℚ) : Nat := max (dmul n r).ceil.toNat 1

theorem maxOutliersOf_le (n : Nat) (r : ℚ) : maxOutliersOf n r ≤ dAllowance n r := min_le_left _ _

theorem dAllowance_mono {n m : Nat} (h : n ≤ m) {r : ℚ} (hr : 0 ≤ r) : dAllowance n r ≤ dAllowance m r := by
  unfold dAllowance
  refine max_le_max (Int.toNat_le_toNat (Rat.ceil_le_iff.2 (le_trans ?_ (Rat.ceil_le_iff.1 le_rfl)))) le_rfl
  exact roundSigned_mono (mul_le_mul_of_nonneg_right (by exact_mod_cast h) hr)

theorem floor_le_dAllowance (n : Nat) (r : ℚ) : max (dmul n r).floor.toNat 1 ≤ dAllowance n r := by
  unfold dAllowance
  refine max_le_max (Int.toNat_le_toNat ?_) le_rfl
  have h1 : (((dmul n r).floor : Int) : ℚ) ≤ dmul n r := Rat.floor_le _
  have h2 : dmul n r ≤ (((dmul n r).ceil : Int) : ℚ) := Rat.ceil_le_iff.1 le_rfl
  exact_mod_cast h1.trans h2

theorem dAllowance_max {n : Nat} (hn : n ≠ 0) (r : ℚ) : dAllowance n (max r (ddiv 1 n)) ≤ dAllowance n r := by
  unfold dAllowance
  rcases le_total r (ddiv 1 n) with h | h
  · rw [max_eq_right h]
    have : (dmul n (ddiv 1 n)).ceil ≤ 1 := Rat.ceil_le_iff.2 (by exact_mod_cast dmul_ddiv_one hn)
    omega
  · rw [max_eq_left h]

/-- **C79** (budget): the number of points that may be selected per direction is the product of the number of points and the
ratio as a double, rounded up, at least one and less than half of the points. -/
theorem C79_budget (n : Nat) (r : ℚ) : ∃ p, Nearest ((n : ℚ) * r) p ∧ maxOutliersOf n r = min (max ⌈p⌉.toNat 1) (n / 2 - 1) := by
  refine ⟨_, roundSigned_nearest _, ?_⟩
  have e : (dmul n r).ceil = ⌈dmul n r⌉ :=
    le_antisymm (Rat.ceil_le_iff.2 (Int.le_ceil _)) (Int.ceil_le.2 (Rat.ceil_le_iff.1 le_rfl))
  unfold maxOutliersOf
  rw [e]
  rfl

/-- **C20** (second budget): what the first pass left over, made a ratio of the number of points, may become one more when the
second pass multiplies it out again: 7 points of 25 become 8. -/
theorem C20_second_budget : (∀ n k : Nat, n ≠ 0 → k < 2 ^ 52 → maxOutliersOf n (ddiv k n) ≤ k + 1) ∧
    maxOutliersOf 25 (ddiv 7 25) = 8 := by
  refine ⟨fun n k hn hk => ?_, by decide +kernel⟩
  have : (dmul n (ddiv k n)).ceil ≤ (k : Int) + 1 := Rat.ceil_le_iff.2 (by exact_mod_cast dmul_ddiv_le hn hk)
  unfold maxOutliersOf
  omega

/-- rounding the product never grants more than the exact product does -/
theorem dAllowance_le {n : Nat} {r : ℚ} (h : |⌈(n : ℚ) * r⌉| < 2 ^ 52) : dAllowance n r ≤ allowance n r := by
  have := dmul_le_ceil (n := n) (r := r) (h.trans (by norm_num))
  unfold dAllowance allowance
  omega

/-- the share of the second pass may be rounded up by one -/
theorem dAllowance_div {n k : Nat} (hn : n ≠ 0) (hk : k < 2 ^ 52) : dAllowance n (ddiv k n) ≤ k + 1 := by
  have : (dmul n (ddiv k n)).ceil ≤ (k : Int) + 1 := Rat.ceil_le_iff.2 (by exact_mod_cast dmul_ddiv_le hn hk)
  unfold dAllowance
  omega

/-- it is for 7 points of 25 -/
example : dAllowance 25 (ddiv 7 25) = 8 := by decide +kernel

/-- the whole allowance is not rounded up -/
theorem dAllowance_whole {n : Nat} {r : ℚ} (hn : n ≠ 0) (hr : 0 < r) (hd : roundSigned r = r)
    (h : |⌈(n : ℚ) * r⌉| < 2 ^ 52) :
    dAllowance n (ddiv (max (dmul n r).floor.toNat 1 : Nat) n) ≤ allowance n r := by
  rcases Nat.eq_zero_or_pos (dmul n r).floor.toNat with h0 | h0
  · rw [h0]
    have : (dmul n (ddiv 1 n)).ceil ≤ 1 := Rat.ceil_le_iff.2 (by exact_mod_cast dmul_ddiv_one hn)
    unfold dAllowance allowance
    simp only [zero_le_one, sup_of_le_right, Nat.cast_one]
    omega
  · rw [max_eq_left h0]
    have h1 : (((dmul n r).floor.toNat : Nat) : ℚ) ≤ dmul n r := by
      have e : (((dmul n r).floor.toNat : Nat) : Int) = (dmul n r).floor := Int.toNat_of_nonneg (by omega)
      have : (((dmul n r).floor : Int) : ℚ) ≤ dmul n r := Rat.floor_le _
      rw [← e] at this
      exact_mod_cast this
    have := Rat.ceil_le_iff.2 (dmul_ddiv_floor hn hr hd h h1 (by omega))
    unfold dAllowance allowance
    omega

theorem dtAnomalies_len {E : Env} {data : List ℚ} {alpha : PyFloat} {r : ℚ} {last : Bool} {an : List Nat}
    {model : ModelType} (h : dtAnomalies E data alpha r last = .ok (an, model)) :
    an.length ≤ 2 * dAllowance data.length r := by
  unfold dtAnomalies at h
  obtain ⟨eu, -, h⟩ := ebind_ok.1 h
  obtain ⟨el, -, h⟩ := ebind_ok.1 h
  have := epure_ok.1 h
  simp only [Prod.mk.injEq] at this
  rw [← this.1]
  exact Nat.le_trans (length_detectFuse ..) (Nat.mul_le_mul_left 2 (maxOutliersOf_le ..))

theorem tsAnomalies_len {E : Env} {data rem : List ℚ} {alpha : PyFloat} {r : ℚ} {last : Bool} {an : List Nat}
    {model : ModelType} (h : tsAnomalies E data rem alpha r last = .ok (an, model)) :
    an.length ≤ 2 * dAllowance data.length r := by
  unfold tsAnomalies at h
  obtain ⟨_, -, h⟩ := ebind_ok.1 h
  obtain ⟨_, -, h⟩ := ebind_ok.1 h
  obtain ⟨_, -, h⟩ := ebind_ok.1 h
  obtain ⟨_, -, h⟩ := ebind_ok.1 h
  have := epure_ok.1 h
  simp only [Prod.mk.injEq] at this
  rw [← this.1]
  exact Nat.le_trans (length_detectFuse ..) (Nat.mul_le_mul_left 2 (maxOutliersOf_le ..))

theorem dt_flagged {E : Env} {series trend : List ℚ} {alpha : PyFloat} {r : ℚ} {needTrend last : Bool}
    {rows : List Row} {model : ModelType}
    (h : dtDetection E series trend alpha r needTrend last = .ok (rows, model)) :
    flagged rows ≤ 2 * dAllowance series.length r := by
  obtain ⟨an, t, h1, -, rfl⟩ := dtDetection_ok h
  have := dtAnomalies_len h1
  rw [length_normalize] at this
  exact Nat.le_trans (flagged_assemble ..) this

theorem ts_flagged {E : Env} {series : List ℚ} {p : Nat} {alpha : PyFloat} {r : ℚ} {needTrend last : Bool}
    {rows : List Row} {model : ModelType}
    (h : tsDetection E series p r alpha needTrend last = .ok (rows, model)) :
    flagged rows ≤ 2 * dAllowance series.length r := by
  obtain ⟨an, d, t, -, hn, -, h1, rfl⟩ := tsDetection_ok h
  have := tsAnomalies_len h1
  rw [length_normalize] at this
  refine Nat.le_trans (flagged_assemble ..) (Nat.le_trans this (Nat.mul_le_mul_left 2 ?_))
  refine le_trans ?_ (dAllowance_max hn r)
  exact dAllowance_mono (by simp) (le_max_of_le_right (by
    unfold ddiv
    rw [roundSigned_pos (by positivity)]
    exact roundDouble_nonneg _))

theorem length_srFlagged (E : Env) (th : PyFloat) (n : Nat) (sc : List ℚ) (maxO : Nat) :
    (srFlagged E th n sc maxO).length ≤ maxO := by
  unfold srFlagged
  rw [List.length_map]
  exact List.length_take_le ..

theorem flagged_modify (rows : List Row) (i : Nat) (f : Row → Row) (hf : ∀ r, (f r).anom = r.anom) :
    flagged (rows.modify i f) = flagged rows := by
  have h := congrArg (List.countP id) (modify_map rows i f (·.anom) hf)
  rw [List.countP_map, List.countP_map] at h
  exact h

theorem sr_flagged {E : Env} {series : List ℚ} {th : PyFloat} {r : ℚ} {needTrend last : Bool}
    {rows : List Row} {model : ModelType}
    (h : srDetection E series th r needTrend last = .ok (rows, model)) :
    flagged rows ≤ dAllowance series.length r := by
  obtain ⟨sc, trend, score, -, -, -, ⟨e, -, rfl⟩ | ⟨-, -, rfl⟩⟩ := srDetection_ok h
  · exact Nat.le_trans (flagged_assemble ..) (Nat.le_trans (length_srFlagged ..) (floor_le_dAllowance ..))
  · rw [flagged_modify _ _ nanLastRow (fun _ => rfl)]
    exact Nat.le_trans (flagged_assemble ..) (Nat.le_trans (length_srFlagged ..) (floor_le_dAllowance ..))

/-- the merged frame has at most the flags of both passes -/
theorem flagged_mergeRows (rows drows : List Row) (newE newT : List ℚ) :
    flagged (mergeRows rows drows newE newT) ≤ flagged rows + flagged drows := by
  unfold mergeRows
  dsimp only
  generalize correctedAt (rows.map (·.expected)) newE = fe
  generalize correctedAt (rows.map fun r => r.trend.getD 0) newT = ft
  generalize 0 = k
  induction rows generalizing drows k with
  | nil => simp [flagged]
  | cons r rows ih =>
    cases drows with
    | nil => simp [flagged]
    | cons d drows =>
      have := ih drows (k + 1)
      simp only [flagged, List.zip_cons_cons, List.zipIdx_cons, List.map_cons, List.countP_cons] at this ⊢
      cases hr : r.anom <;> cases hd : d.anom <;>
        simp only [Bool.not_true, Bool.not_false, Bool.and_true, Bool.true_and, Bool.and_self,
          Bool.false_eq_true, if_true, if_false, hr, mergedRow] at this ⊢ <;> omega

theorem merge_flagged {E : Env} {rows out : List Row} {series : List ℚ} {r : ℚ}
    {run : List ℚ → ℚ → Except PyErr (List Row × ModelType)} (hn : series.length ≠ 0) (hr : 0 < r)
    (hd : roundSigned r = r) (hz : |⌈(series.length : ℚ) * r⌉| < 2 ^ 52)
    (h0 : flagged rows ≤ 2 * dAllowance series.length r)
    (hrun : ∀ ds q drows md, run ds q = .ok (drows, md) → flagged drows ≤ 2 * dAllowance ds.length q)
    (h : mergeWithDelta E rows series r run = .ok out) : flagged out ≤ 2 * allowance series.length r + 1 := by
  have h5 := dAllowance_le hz
  rcases mergeWithDelta_ok h with rfl | ⟨delta, ds, drows, md, newE, newT, -, -, hl, hlt, h1, rfl⟩
  · omega
  · have h2 := hrun _ _ _ _ h1
    rw [flagged_filter] at hlt h2
    rw [hl] at hlt h2
    have h3 := floor_le_dAllowance series.length r
    have h4 := flagged_mergeRows rows drows newE newT
    have h6 : allowance series.length r < 2 ^ 52 := by
      unfold allowance
      rw [abs_lt] at hz
      omega
    rcases Nat.eq_zero_or_pos (flagged rows) with h7 | h7
    · rw [h7, Nat.sub_zero] at h2
      have := dAllowance_whole hn hr hd hz
      omega
    · have := dAllowance_div (k := max (dmul series.length r).floor.toNat 1 - flagged rows) hn (by omega)
      omega

theorem run_flagged {E : Env} {M : Model} {series : List ℚ} {r : ℚ} {p : Nat} {last : Bool} {rows : List Row}
    {model : ModelType} (hn : series.length ≠ 0) (hr : 0 < r)
    (hd : roundSigned r = r) (hz : |⌈(series.length : ℚ) * r⌉| < 2 ^ 52)
    (h : M.run E series r p last = .ok (rows, model)) :
    flagged rows ≤ 2 * allowance series.length r + 1 := by
  have h5 := dAllowance_le hz
  rcases run_ok h with ⟨-, h⟩ | ⟨-, rows0, h1, h2⟩ | ⟨-, rows0, trend, h1, h2⟩
  · have := ts_flagged h
    omega
  · refine merge_flagged hn hr hd hz (by have := sr_flagged h1; omega) ?_ h2
    intro ds q drows md h
    have := sr_flagged h
    omega
  · exact merge_flagged hn hr hd hz (dt_flagged h1) (fun _ _ _ _ h => dt_flagged h) h2

theorem flagged_dropFilled (rows : List Row) (tags : List Bool) : flagged (dropFilled rows tags) ≤ flagged rows := by
  unfold dropFilled flagged
  have : ((rows.zipIdx.filter fun x => !(tags.getD x.2 false)).map (·.1)).Sublist rows := by
    have := (List.filter_sublist (l := rows.zipIdx) (p := fun x => !(tags.getD x.2 false))).map (·.1)
    simpa using this
  exact this.countP_le

theorem flagged_clearNear (rows : List Row) : flagged (rows.map clearNear) ≤ flagged rows := by
  unfold flagged
  rw [List.countP_map]
  refine List.countP_mono_left ?_
  intro r _ h
  exact ((clearNear_anom r).1 h).1

/-- the ratio in force: the requested one, or 0.25 -/
def RatioOf (p : Params) (r : ℚ) : Prop :=
  (p "maxAnomalyRatio" = none ∧ r = 1 / 4) ∨ p "maxAnomalyRatio" = some (.float (.fin r))

theorem countP_le_of_getElem {α β} {f : α → Bool} {g : β → Bool} {l : List α} {m : List β} (hlen : l.length = m.length)
    (h : ∀ i (hi : i < l.length), f l[i] = true → g (m[i]'(by omega)) = true) : l.countP f ≤ m.countP g := by
  induction l generalizing m with
  | nil => simp
  | cons a l ih =>
    cases m with
    | nil => simp at hlen
    | cons b m =>
      have h1 := ih (m := m) (by simpa using hlen) fun i hi hf => by
        have := h (i + 1) (by simpa using hi) (by simpa using hf)
        simpa using this
      have h2 := h 0 (by simp)
      simp only [List.getElem_cons_zero] at h2
      simp only [List.countP_cons]
      split <;> split <;> simp_all <;> omega

/-- **C20** (number of anomalies). In ENTIRE mode at most `2 * max(ceil(N * ratio), 1) + 1` points are reported, where `N`
is the number of points, or of grid positions when gaps were filled. The code computes its allowances in doubles and the
bound is about the exact product. The ratio is a double. -/
theorem C20_count_bound {E : Env} (hE : E.WF) {W : Wild} {d : Detector} {hasTs hasValue : Bool}
    {rows : List (PyVal × PyVal)} {params : Params} {items : List Item} (hno : params "indices" = none)
    (hf : FiniteFill E (.frame hasTs hasValue rows) params) (hm : InMode d params .ENTIRE) {r : ℚ}
    (hr : RatioOf params r) (hd : IsDouble r)
    (h : (predict E W d (.frame hasTs hasValue rows) params).outcome = .ok items) :
    ∃ (idx : List Int) (N : Nat), Positions E params hasTs rows idx ∧
      (N = rows.length ∨ (N : Int) = idx.getLastD 0 + 1) ∧
      items.countP (·.anom) ≤ 2 * max ⌈(N : ℚ) * r⌉.toNat 1 + 1 := by
  obtain ⟨T⟩ := predict_trace hE hno hf h
  obtain ⟨eT, eV, eR⟩ : hasTs = T.hasTs ∧ hasValue = T.hasValue ∧ rows = T.rows := by
    simpa using T.isFrame
  have hpos := parsed_positions hE T.parsed T.validated
  rw [← eT, ← eR] at hpos
  obtain ⟨l1, l2, l3, hne⟩ := T.len hE
  have hratio : T.ratio = r := by
    have h1 := T.selected.finite
    have hl : isLatest T.mode = false := by rw [T.mode_eq hm]; rfl
    unfold Model.maxRatio at h1
    rw [hl] at h1
    simp only [Bool.false_and, Bool.false_eq_true, if_false] at h1
    rw [T.configured.ratio] at h1
    rcases T.parsed.ratio with ⟨a, b⟩ | ⟨f, a, -, -, b⟩
    · rw [b] at h1
      rcases hr with ⟨-, rfl⟩ | hr
      · simp only [Option.getD_none, PyFloat.fin.injEq] at h1
        rw [← h1]; norm_num
      · rw [a] at hr; cases hr
    · rw [b] at h1
      rcases hr with ⟨hr, -⟩ | hr
      · rw [a] at hr; cases hr
      · rw [a] at hr
        cases hr
        simpa using h1.symm
  refine ⟨T.idx, ((T.full.map (·.1)).getD T.M.values).length, hpos, ?_, ?_⟩
  · rcases T.selected.fills with ⟨-, hfl⟩ | ⟨-, hfl⟩
    · rw [filled_length hE hne T.fillInit hfl]
      split
      · exact .inr (allCount_last hne T.fillInit)
      · exact .inl (l2.trans (congrArg List.length eR.symm))
    · rw [hfl]
      exact .inl (l2.trans (congrArg List.length eR.symm))
  · have hN : ((T.full.map (·.1)).getD T.M.values).length ≠ 0 := by
      have : T.M.values.length ≤ ((T.full.map (·.1)).getD T.M.values).length := by
        rcases T.selected.fills with ⟨-, hfl⟩ | ⟨-, hfl⟩
        · rw [filled_length hE hne T.fillInit hfl]
          split
          · have hg := (FillProc.init_good hne T.fillInit)
            have h4 : T.idx.length = T.M.fill.indices.length := by rw [hg.2.1, List.length_map]
            have := hg.1.missing
            omega
          · exact le_rfl
        · rw [hfl]; exact le_rfl
      omega
    have hhi : ((T.full.map (·.1)).getD T.M.values).length ≤ 17280 := by
      have h8 := T.validated.hi
      rcases T.selected.fills with ⟨-, hfl⟩ | ⟨-, hfl⟩
      · rw [filled_length hE hne T.fillInit hfl]
        split
        · rename_i hc
          exact ((FillProc.init_good hne T.fillInit).1.need.1 hc.1).2
        · omega
      · rw [hfl]
        show T.M.values.length ≤ 17280
        omega
    obtain ⟨r0, r1⟩ : 0 < r ∧ r ≤ 49 / 100 := by
      rcases hr with ⟨-, rfl⟩ | hr
      · norm_num
      · rcases T.parsed.ratio with ⟨a, -⟩ | ⟨f, a, b, c, -⟩
        · rw [a] at hr; cases hr
        · rw [a] at hr
          cases hr
          simpa [PyFloat.le, PyFloat.lt] using And.intro b c
    have hz : |⌈((((T.full.map (·.1)).getD T.M.values).length : Nat) : ℚ) * r⌉| < 2 ^ 52 := by
      generalize ((T.full.map (·.1)).getD T.M.values).length = N at hhi
      have hN : (N : ℚ) ≤ 17280 := by exact_mod_cast hhi
      have b1 : (N : ℚ) * r ≤ 17280 := by
        calc (N : ℚ) * r ≤ N * 1 := mul_le_mul_of_nonneg_left (by linarith) (by positivity)
          _ ≤ 17280 := by linarith
      have b2 : ⌈(N : ℚ) * r⌉ ≤ 17280 := Int.ceil_le.2 (by exact_mod_cast b1)
      have b3 : 0 ≤ ⌈(N : ℚ) * r⌉ := Int.ceil_nonneg (mul_nonneg (by positivity) r0.le)
      rw [abs_lt]
      omega
    have hrun := T.selected.run
    rw [hratio] at hrun
    have h1 := run_flagged hN r0 (roundSigned_isDouble hd) hz hrun
    have h2 : flagged T.frame0 ≤ flagged T.raw := by
      rw [T.selected.out]
      split
      · exact flagged_dropFilled _ _
      · exact le_rfl
    have h3 := flagged_clearNear T.frame0
    have hfin := T.finished
    rw [T.mode_eq hm] at hfin
    obtain ⟨-, f2, f3⟩ := finish_entire (paramSens_range T.parsed).2 (T.ready hE) hfin
    have h4 : items.countP (·.anom) ≤ flagged (T.frame0.map clearNear) := by
      refine countP_le_of_getElem f2 ?_
      intro i hi ha
      obtain ⟨r, o, ts, e1, e2, -, e3⟩ := (f3 i _ (List.getElem?_eq_getElem hi)).ex
      rw [e3] at ha
      have := e2.implies ha
      have e1 := (List.getElem?_eq_some_iff.1 e1).2
      rw [e1]
      exact this
    exact h4.trans (h3.trans (h2.trans h1))

/-- the number of anomalies of an answer -/
def anomCount (r : CallResult) : Option Nat :=
  match r.outcome with
  | .ok l => some (l.countP (·.anom))
  | .error _ => none

/-- the ratio 0.25 is a double -/
example : IsDouble (1 / 4) := ⟨1, -2, by norm_num, by norm_num⟩

/-- 8 of 14 points are reported with the default ratio 0.25 -/
example : anomCount (predict demoEnv demoWild entireDetector demoData
      (Params.ofList [("period", .int 0), ("sensitivity", .int 100)])) = some (2 * max ⌈(14 : ℚ) * (1 / 4)⌉.toNat 1) := by
  decide +kernel

/-- **C20**, second half: the ratio is no bound on the total number. -/
theorem C20_total_bound_fails : ∃ (E : Env) (W : Wild) (d : Detector) (rows : List (PyVal × PyVal)) (params : Params)
    (r : ℚ) (items : List Item), E.WF ∧ params "indices" = none ∧ InMode d params .ENTIRE ∧ RatioOf params r ∧
      (predict E W d (.frame true true rows) params).outcome = .ok items ∧ items.length = rows.length ∧
      max ⌈(rows.length : ℚ) * r⌉.toNat 1 < items.countP (·.anom) := by
  have h : anomCount (predict demoEnv demoWild entireDetector (.frame true true (demoRows demoSeries))
      (Params.ofList [("period", .int 0), ("sensitivity", .int 100)])) = some 8 := by decide +kernel
  unfold anomCount at h
  split at h
  · rename_i items hi
    have hl : okLen (predict demoEnv demoWild entireDetector (.frame true true (demoRows demoSeries))
      (Params.ofList [("period", .int 0), ("sensitivity", .int 100)])) = some 14 := by decide +kernel
    unfold okLen at hl
    rw [hi] at hl
    simp only [Option.some.injEq] at h hl
    refine ⟨demoEnv, demoWild, entireDetector, demoRows demoSeries, _, 1 / 4, items, demoEnv_WF, ?_, .inl rfl,
      .inl ⟨?_, rfl⟩, hi, ?_, ?_⟩
    · simp [Params.ofList, Params.set]
    · simp [Params.ofList, Params.set]
    · rw [hl]; decide
    · rw [h]; decide +kernel
  · cases h

end Verif
