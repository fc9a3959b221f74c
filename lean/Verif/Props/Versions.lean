import Verif.Props.Sens
import Verif.Props.Unused
import Verif.Props.Options
import Verif.Props.Ratio

/-!
# The choice of a boundary version (C134)

What `boundaryVersion` changes in an answer, and what it does not change.
-/

namespace Verif

open Spec

/-! ### detection with and without the trend column -/

/-- the row without its trend -/
def Row.bare (r : Row) : Row := { r with trend := none }

theorem assemble_bare (s e : List ℚ) (t sc : Option (List ℚ)) (an : List Nat) :
    (assemble s e t sc an).map Row.bare = assemble s e none sc an := by
  unfold assemble
  rw [List.map_map]
  rfl

theorem modify_bare (l : List Row) (i : Nat) : (l.modify i nanLastRow).map Row.bare = (l.map Row.bare).modify i nanLastRow := by
  refine List.ext_getElem? fun j => ?_
  simp only [List.getElem?_map, List.getElem?_modify]
  cases l[j]? with
  | none => simp
  | some r => by_cases h : i = j <;> simp [h, Row.bare, nanLastRow]

theorem srDetection_bare {E : Env} {s : List ℚ} {th : PyFloat} {ratio : ℚ} {last : Bool} {x : List Row × ModelType}
    (h : srDetection E s th ratio true last = .ok x) : srDetection E s th ratio false last = .ok (x.1.map Row.bare, x.2) := by
  unfold srDetection at h ⊢
  dsimp only at h ⊢
  obtain ⟨⟨sc, md⟩, h1, h⟩ := ebind_ok.1 h
  rw [h1]
  dsimp only [bind, Except.bind] at h ⊢
  generalize (if last = true then srExpectedLast s (List.map (fun s => decide (s ≤ 1)) sc)
    else some (srExpectedEntire s (List.map (fun s => decide (s ≤ 1)) sc))) = ex at h ⊢
  cases ex with
  | some ex =>
    dsimp only at h ⊢
    split at h
    · cases h
    · cases epure_ok.1 h
      rw [assemble_bare]
      rfl
  | none =>
    dsimp only at h ⊢
    split at h
    · cases h
    · cases epure_ok.1 h
      rw [modify_bare, assemble_bare]
      rfl

theorem dtDetection_bare {E : Env} {s t : List ℚ} {al : PyFloat} {ratio : ℚ} {last : Bool} {x : List Row × ModelType}
    (h : dtDetection E s t al ratio true last = .ok x) : dtDetection E s t al ratio false last = .ok (x.1.map Row.bare, x.2) := by
  unfold dtDetection at h ⊢
  obtain ⟨an, h1, h⟩ := ebind_ok.1 h
  obtain ⟨tr, h2, h⟩ := ebind_ok.1 h
  rw [h1]
  show (dtTrend E s t an.1 >>= _ : Except PyErr _) = _
  rw [h2]
  show (if tr.length ≠ s.length then _ else _) = _
  split at h
  · cases h
  · rename_i hl
    rw [if_neg hl]
    cases epure_ok.1 h
    rw [assemble_bare]
    rfl

theorem tsDetection_bare {E : Env} {s : List ℚ} {n : Nat} {al : PyFloat} {ratio : ℚ} {last : Bool} {x : List Row × ModelType}
    (h : tsDetection E s n ratio al true last = .ok x) : tsDetection E s n ratio al false last = .ok (x.1.map Row.bare, x.2) := by
  unfold tsDetection at h ⊢
  dsimp only at h ⊢
  split at h
  · cases h
  rename_i c1
  rw [if_neg c1]
  split at h
  · cases h
  rename_i c2
  rw [if_neg c2]
  split at h
  · cases h
  rename_i c3
  rw [if_neg c3]
  obtain ⟨d, h1, h⟩ := ebind_ok.1 h
  obtain ⟨an, h2, h⟩ := ebind_ok.1 h
  obtain ⟨tr, h3, h⟩ := ebind_ok.1 h
  rw [h1]
  show (tsAnomalies E _ _ al _ last >>= _ : Except PyErr _) = _
  rw [h2]
  show (tsTrend s.length n an.1 d.trend >>= _ : Except PyErr _) = _
  rw [h3]
  cases epure_ok.1 h
  show (Except.ok _ : Except PyErr _) = _
  rw [assemble_bare]
  rfl

theorem undelta_ok (k : Nat) (vs l : List ℚ) : ∃ m, undelta k vs l = .ok m := by
  unfold undelta
  split
  · exact ⟨_, by unfold reverseDelta; rw [if_neg (by simp)]⟩
  · exact ⟨l, rfl⟩

theorem mergeRows_bare (rows drows : List Row) (e t t' : List ℚ) :
    (mergeRows rows drows e t).map Row.bare = mergeRows (rows.map Row.bare) (drows.map Row.bare) e t' := by
  unfold mergeRows
  dsimp only
  rw [List.map_map, List.map_map, List.zip_map, List.zipIdx_map, List.map_map, List.map_map]
  refine List.map_congr_left fun x _ => ?_
  obtain ⟨⟨r, d⟩, i⟩ := x
  show Row.bare (if (!r.anom && d.anom) = true then _ else r) = if (!r.anom && d.anom) = true then _ else r.bare
  split
  · rfl
  · rfl

theorem mergeWithDelta_bare {E : Env} {rows : List Row} {s : List ℚ} {ratio : ℚ} {run run' : List ℚ → ℚ → Except PyErr (List Row × ModelType)}
    (hr : ∀ s r x, run s r = .ok x → run' s r = .ok (x.1.map Row.bare, x.2)) {out : List Row}
    (h : mergeWithDelta E rows s ratio run = .ok out) : mergeWithDelta E (rows.map Row.bare) s ratio run' = .ok (out.map Row.bare) := by
  unfold mergeWithDelta at h ⊢
  obtain ⟨o, h1, h⟩ := ebind_ok.1 h
  rw [h1]
  show (match o with | none => _ | some (0, _) => _ | some (delta, ds) => _) = _
  split at h
  · cases epure_ok.1 h; rfl
  · cases epure_ok.1 h; rfl
  · rename_i delta ds hne
    have hf : ((rows.map Row.bare).filter (·.anom)).length = (rows.filter (·.anom)).length := by
      rw [List.filter_map, List.length_map]
      rfl
    have hv : (rows.map Row.bare).map (·.value) = rows.map (·.value) := by rw [List.map_map]; rfl
    obtain ⟨j, rfl⟩ := Nat.exists_eq_succ_of_ne_zero hne
    dsimp only at h ⊢
    rw [hf, hv]
    change (if _ then _ else _) = _
    split at h
    · rename_i hc
      rw [if_pos hc]
      obtain ⟨x, h2, h⟩ := ebind_ok.1 h
      obtain ⟨ne, h3, h⟩ := ebind_ok.1 h
      obtain ⟨nt, h4, h⟩ := ebind_ok.1 h
      cases epure_ok.1 h
      rw [hr _ _ _ h2]
      have he : (x.1.map Row.bare).map (·.expected) = x.1.map (·.expected) := by rw [List.map_map]; rfl
      obtain ⟨nt', h5⟩ := undelta_ok (j + 1) (rows.map (·.value)) ((x.1.map Row.bare).map fun r => r.trend.getD 0)
      show (undelta (j + 1) _ ((x.1.map Row.bare).map (·.expected)) >>= _ : Except PyErr _) = _
      rw [he, h3]
      show (undelta (j + 1) _ _ >>= _ : Except PyErr _) = _
      rw [h5]
      show (Except.ok _ : Except PyErr _) = _
      rw [mergeRows_bare _ _ _ _ nt']
    · rename_i hc
      rw [if_neg hc]
      cases epure_ok.1 h
      rfl

/-- the model that does not ask for the trend -/
def Model.bare (M : Model) : Model := { M with needTrend := false }

theorem run_bare {E : Env} {M : Model} (hM : M.needTrend = true) {s : List ℚ} {ratio : ℚ} {n : Nat} {last : Bool} {x : List Row × ModelType}
    (h : M.run E s ratio n last = .ok x) : M.bare.run E s ratio n last = .ok (x.1.map Row.bare, x.2) := by
  unfold Model.run at h ⊢
  rw [hM] at h
  split at h
  · rename_i hn
    rw [if_pos hn]
    exact tsDetection_bare h
  · rename_i hn
    rw [if_neg hn]
    show (if shouldTriggerSr E M.gran M.interval s = true then _ else _) = _
    split at h
    · rename_i hs
      rw [if_pos hs]
      obtain ⟨y, h1, h⟩ := ebind_ok.1 h
      obtain ⟨rows, h2, h⟩ := ebind_ok.1 h
      cases epure_ok.1 h
      show (srDetection E s M.threshold ratio false last >>= _ : Except PyErr _) = _
      rw [srDetection_bare h1]
      show (mergeWithDelta E (y.1.map Row.bare) s ratio (fun s r => srDetection E s M.threshold r false last) >>= _ : Except PyErr _) = _
      rw [mergeWithDelta_bare (fun _ _ _ => srDetection_bare) h2]
      rfl
    · rename_i hs
      rw [if_neg hs]
      obtain ⟨t, h0, h⟩ := ebind_ok.1 h
      obtain ⟨y, h1, h⟩ := ebind_ok.1 h
      obtain ⟨rows, h2, h⟩ := ebind_ok.1 h
      cases epure_ok.1 h
      rw [h0]
      show (dtDetection E s t M.alpha ratio false last >>= _ : Except PyErr _) = _
      rw [dtDetection_bare h1]
      show (mergeWithDelta E (y.1.map Row.bare) s ratio (fun s r => dtDetection E s t M.alpha r false last) >>= _ : Except PyErr _) = _
      rw [mergeWithDelta_bare (fun _ _ _ => dtDetection_bare) h2]
      rfl

theorem dropFilled_bare (rows : List Row) (tags : List Bool) :
    (dropFilled rows tags).map Row.bare = dropFilled (rows.map Row.bare) tags := by
  unfold dropFilled
  rw [List.zipIdx_map, List.filter_map, List.map_map, List.map_map]
  rfl

theorem select_bare {E : Env} {M : Model} (hM : M.needTrend = true) {period : Option Nat} {last : Bool} {x : List Row × Nat × ModelType × Option Nat}
    (h : M.select E period last = .ok x) : M.bare.select E period last = .ok (x.1.map Row.bare, x.2) := by
  unfold Model.select at h ⊢
  obtain ⟨⟨p, so⟩, h1, h⟩ := ebind_ok.1 h
  obtain ⟨full, h2, h⟩ := ebind_ok.1 h
  rw [show M.bare.usedPeriod E period = M.usedPeriod E period from rfl, h1]
  show (M.usedSeries E p >>= _ : Except Stop _) = _
  rw [h2]
  show (match M.maxRatio last with | .fin ratio => _ | _ => _) = _
  dsimp only at h
  split at h
  · rename_i ratio hr
    rw [hr]
    obtain ⟨y, h3, h⟩ := ebind_ok.1 h
    cases epure_ok.1 h
    dsimp only
    show (lift (M.bare.run E ((full.map (·.1)).getD M.values) ratio p last) >>= _ : Except Stop _) = _
    rw [run_bare hM (lift_ok.1 h3)]
    show (Except.ok _ : Except Stop _) = _
    cases full with
    | none => rfl
    | some f =>
      show (Except.ok (dropFilled (y.1.map Row.bare) f.2, _) : Except Stop _) = .ok ((dropFilled y.1 f.2).map Row.bare, _)
      rw [dropFilled_bare]
  · cases h

theorem detect_bare {E : Env} {M : Model} (hM : M.needTrend = true) {det : Option (List (String × PyVal))} {period : Option Nat} {last : Bool}
    {x : List Row × Nat × ModelType} (h : M.detect E det period last = .ok x) :
    M.bare.detect E det period last = .ok (x.1.map Row.bare, x.2) ∧ ∀ r ∈ x.1, r.anom = true → r.value ≠ r.expected := by
  unfold Model.detect at h ⊢
  simp only at h ⊢
  rw [show M.bare.majority = M.majority from rfl]
  split at h
  · cases h
  · obtain ⟨⟨rows, p, model, so⟩, h1, h⟩ := ebind_ok.1 h
    obtain ⟨u, h2, h⟩ := ebind_ok.1 h
    cases epure_ok.1 h
    have hc : (rows.map Row.bare).map clearNear = (rows.map clearNear).map Row.bare := by
      rw [List.map_map, List.map_map]
      refine List.map_congr_left fun r _ => ?_
      show clearNear r.bare = (clearNear r).bare
      unfold clearNear
      show (if |r.value - r.expected| < EPS then _ else _) = _
      split <;> rfl
    have ha : ((rows.map clearNear).map Row.bare).any (·.anom) = (rows.map clearNear).any (·.anom) := by
      rw [List.any_map]; rfl
    refine ⟨?_, ?_⟩
    · simp only
      rw [select_bare hM h1]
      show (M.bare.spectrum E p so ((rows.map Row.bare).map clearNear) >>= _ : Except Stop _) = _
      have hs : M.bare.spectrum E p so ((rows.map Row.bare).map clearNear) = M.spectrum E p so (rows.map clearNear) := by
        unfold Model.spectrum
        rw [hc, ha]
        rfl
      rw [hs, h2]
      show (Except.ok ((rows.map Row.bare).map clearNear, _) : Except Stop _) = _
      rw [hc]
    · intro r hr ha he
      obtain ⟨r0, -, rfl⟩ := List.mem_map.1 hr
      have := ((clearNear_anom r0).1 ha).2
      rw [clearNear_value, clearNear_expected] at he
      rw [he, sub_self, abs_zero] at this
      exact absurd this (not_le.2 eps_pos)

/-! ### the band -/

/-- the part of an output point that does not depend on the band -/
def Told (sens : Int) (r : Row) (o : Out) : Prop := o.expected = r.expected ∧ (sens = 100 → o.anom = r.anom)

theorem marginsV1_told (rows : List Row) (model : ModelType) (sens : Int) : List.Forall₂ (Told sens) rows (marginsV1 rows sens model) := by
  rw [marginsV1_eq, List.forall₂_iff_get]
  have l1 := length_v1Margins sens rows model
  refine ⟨by rw [length_refineMargins l1], ?_⟩
  intro i hi hi'
  simp only [List.get_eq_getElem]
  rw [getElem_refineMargins l1 hi]
  unfold refinePoint
  dsimp only
  split
  · exact ⟨rfl, fun _ => rfl⟩
  · rename_i h
    exact ⟨rfl, fun h' => absurd h' h⟩

theorem v2_told {r : Row} (hr : r.anom = true → r.value ≠ r.expected) {unit um lm : ℚ}
    (h : calculateMargin unit 100 r.value r.expected r.anom = .ok (um, lm)) :
    ((r.anom && decide (r.value < r.expected - lm)) || (r.anom && decide (r.expected + um < r.value))) = r.anom := by
  obtain ⟨-, -, -, ha, -⟩ := calculateMargin_ok h
  cases e : r.anom
  · rfl
  · obtain ⟨rfl, rfl⟩ := ha e
    have hd : v2Delta unit 100 r.value r.expected = 0 := by
      unfold v2Delta
      rw [if_neg (by norm_num), show factors.getD (100 : Int).toNat 0 = 0 from factors_last, mul_zero]
    rw [hd]
    rcases lt_or_gt_of_ne (hr e) with h | h <;> simp [h]

theorem getMargins_told {rows : List Row} {model : ModelType} {bv : BoundaryVersion} {sens : Int} {outs : List Out}
    (hr : ∀ r ∈ rows, r.anom = true → r.value ≠ r.expected) (h : getMargins rows sens model bv = .ok outs) :
    List.Forall₂ (Told sens) rows outs := by
  unfold getMargins at h
  split at h
  · cases h
    exact marginsV1_told rows model sens
  · have h' := forall₂_zip_left (mapM_forall₂ h) (length_rowUnits rows)
    rw [List.forall₂_iff_get] at h' ⊢
    refine ⟨h'.1, ?_⟩
    intro i hi hi'
    obtain ⟨u, hu⟩ := h'.2 i hi hi'
    obtain ⟨um, lm, h1, e⟩ := pointV2_eq hu
    rw [e]
    refine ⟨rfl, ?_⟩
    rintro rfl
    exact v2_told (hr _ (List.get_mem _ _)) h1

theorem getMarginsLast_told {rows : List Row} {model : ModelType} {bv : BoundaryVersion} {sens : Int} {o : Out}
    (hr : ∀ r ∈ rows, r.anom = true → r.value ≠ r.expected) (h : getMarginsLast rows sens model bv = .ok o) :
    ∃ r, rows.getLast? = some r ∧ Told sens r o := by
  unfold getMarginsLast at h
  split at h
  · split at h
    · rename_i o' ho
      cases h
      exact forall₂_getLast (marginsV1_told rows model sens) ho
    · cases h
  · split at h
    · rename_i x hx
      obtain ⟨um, lm, h1, rfl⟩ := pointV2Last_eq h
      have hl := (getLast?_zip (length_rowUnits rows) hx).1
      refine ⟨x.1, hl, rfl, ?_⟩
      rintro rfl
      exact v2_told (hr _ (List.mem_of_getLast? hl)) h1
    · cases h

/-- two items about the same point with bands of their own -/
structure Item.Alike (sens : Int) (a b : Item) : Prop where
  timestamp : b.timestamp = a.timestamp
  expected : b.expected = a.expected
  period : b.period = a.period
  suggested : b.suggested = a.suggested
  anom : sens = 100 → b.anom = a.anom

theorem told_alike {sens : Int} {ts : PyVal} {r : Row} {o o' : Out} {p : Nat} {sw : Option Nat} (h : Told sens r o) (h' : Told sens r.bare o') :
    (mkItem ts o p sw).Alike sens (mkItem ts o' p sw) :=
  ⟨rfl, h'.1.trans h.1.symm, rfl, rfl, fun hs => (h'.2 hs).trans (h.2 hs).symm⟩

theorem finish_bare {mode : PyVal} {stamps : List PyVal} {rows : List Row} {per : Nat} {model : ModelType}
    {bv : BoundaryVersion} {g : Granularity} {sens : Int} (hr : ∀ r ∈ rows, r.anom = true → r.value ≠ r.expected)
    {items : List Item} (h : finish mode stamps rows per model sens bv g = .ok items) :
    ∃ items', finish mode stamps (rows.map Row.bare) per model sens .V1 g = .ok items' ∧ List.Forall₂ (Item.Alike sens) items items' := by
  unfold finish at h ⊢
  rw [List.length_map]
  split at h
  · cases h
  · rename_i hl
    rw [if_neg hl]
    have latest : ∀ {items : List Item}, (do
        let o ← getMarginsLast rows sens model bv
        match stamps.getLast? with
        | some ts => pure [mkItem ts o per (some (suggestedWindow per g))]
        | none => .error .indexError : Except PyErr (List Item)) = .ok items →
        ∃ items', (do
        let o ← getMarginsLast (rows.map Row.bare) sens model .V1
        match stamps.getLast? with
        | some ts => pure [mkItem ts o per (some (suggestedWindow per g))]
        | none => .error .indexError : Except PyErr (List Item)) = .ok items' ∧
          List.Forall₂ (Item.Alike sens) items items' := by
      intro items h
      obtain ⟨o, ho, h⟩ := ebind_ok.1 h
      obtain ⟨r, h1, h2⟩ := getMarginsLast_told hr ho
      obtain ⟨o', h3⟩ : ∃ o', (marginsV1 (rows.map Row.bare) sens model).getLast? = some o' := by
        have := (marginsV1_told (rows.map Row.bare) model sens).length_eq
        have hn : marginsV1 (rows.map Row.bare) sens model ≠ [] := by
          intro e
          rw [e, List.length_map, List.length_nil] at this
          rw [List.eq_nil_of_length_eq_zero this] at h1
          cases h1
        exact ⟨_, List.getLast?_eq_getLast_of_ne_nil hn⟩
      have h4 : getMarginsLast (rows.map Row.bare) sens model .V1 = .ok o' := by
        unfold getMarginsLast
        rw [if_pos rfl, h3]
      obtain ⟨r', h5, h6⟩ := forall₂_getLast (marginsV1_told (rows.map Row.bare) model sens) h3
      rw [List.getLast?_map, h1] at h5
      cases h5
      split at h
      · rename_i ts hts
        have e := epure_ok.1 h
        subst e
        refine ⟨[mkItem ts o' per (some (suggestedWindow per g))], ?_, ?_⟩
        · simp [h4, bind, Except.bind, pure, Except.pure]
        · exact .cons (told_alike h2 h6) .nil
      · cases h
    cases mode with
    | dtype m =>
      cases m with
      | ENTIRE =>
        dsimp only at h ⊢
        obtain ⟨outs, ho, h⟩ := ebind_ok.1 h
        have h1 := getMargins_told hr ho
        have h2 := marginsV1_told (rows.map Row.bare) model sens
        have e := epure_ok.1 h
        subst e
        refine ⟨List.zipWith (fun ts o => mkItem ts o per none) stamps (marginsV1 (rows.map Row.bare) sens model), rfl, ?_⟩
        clear ho h hl latest hr
        clear h
        generalize marginsV1 (rows.map Row.bare) sens model = outs' at h2
        induction h1 generalizing stamps outs' with
        | nil =>
          cases h2
          simp
        | cons h3 _ ih =>
          cases h2 with
          | cons h4 h5 =>
            cases stamps with
            | nil => simp
            | cons ts stamps => exact .cons (told_alike h3 h4) (ih _ h5)
      | LATEST => exact latest h
    | _ => exact latest h

theorem init_bare_map (E : Env) (vs : List PyFloat) (mp : ModelParams) :
    Model.init E vs { mp with needTrend := false } = (Model.init E vs mp).map Model.bare := by
  unfold Model.init
  simp only
  split
  · rfl
  · split
    · split
      · rfl
      · rename_i values _ _ _ _ _ idx _
        cases FillProc.init idx values <;> rfl
    · rfl

theorem init_trend {E : Env} {vs : List PyFloat} {mp : ModelParams} {M : Model} (h : Model.init E vs mp = .ok M) :
    M.needTrend = mp.needTrend := by
  unfold Model.init at h
  split at h
  · cases h
  · split at h
    · split at h
      · cases h
      · obtain ⟨P, -, h⟩ := ebind_ok.1 h
        cases epure_ok.1 h
        rfl
    · cases h

theorem runModel_bare {E : Env} {m : PyVal} {ht hv : Bool} {rows : List (PyVal × PyVal)} {mp : ModelParams} {p q : Params}
    (hM : mp.needTrend = true) (h1 : p "period" = q "period") (h2 : p "sensitivity" = q "sensitivity") (h3 : paramBoundary q = .V1)
    {items : List Item} (h : runModel E m ht hv rows mp p = .ok items) :
    ∃ items', runModel E m ht hv rows { mp with needTrend := false } q = .ok items' ∧ List.Forall₂ (Item.Alike (paramSens p)) items items' := by
  obtain ⟨vs, M, rs, per, model, a1, a2, a3, a4⟩ := runModel_ok h
  have b2 := init_bare_map E vs mp
  rw [a2] at b2
  have b3 := init_trend a2
  obtain ⟨c1, c2⟩ := detect_bare (b3.trans hM) a3
  obtain ⟨items', d1, d2⟩ := finish_bare c2 a4
  refine ⟨items', ?_, d2⟩
  have ep : paramPeriod q = paramPeriod p := by unfold paramPeriod; rw [h1]
  have es : paramSens q = paramSens p := by unfold paramSens; rw [h2]
  unfold runModel
  rw [a1, ep, es, h3]
  simp only [lift, Bind.bind, Except.bind]
  rw [b2]
  simp only [Except.map]
  rw [c1]
  simp only
  rw [d1]

/-! ### parsing -/

namespace Spec

/-- what the request holds at `boundaryVersion` stands for version `bv`: absent and `None` for V1 -/
def VersionOk (o : Option PyVal) (bv : BoundaryVersion) : Prop :=
  ((o = none ∨ o = some .none ∨ o = some (.str "V1")) ∧ bv = .V1) ∨ (o = some (.str "V2") ∧ bv = .V2) ∨ (o = some (.str "V3") ∧ bv = .V3)

end Spec

/-- two dicts that agree except at the two keys that the boundary version decides -/
def Tail (p q : Params) : Prop := ∀ x, x ≠ "boundaryVersion" → x ≠ "need_trend" → p x = q x

def SimW {α β : Type} (a b : Option PyVal) (R : α → β → Prop) (x : PM α) (y : PM β) : Prop :=
  ∀ p q, Off "boundaryVersion" a b p q → ResRel R (x p).2 (y q).2 ∧ Tail (x p).1 (y q).1

def SimT {α β : Type} (R : α → β → Prop) (x : PM α) (y : PM β) : Prop :=
  ∀ p q, Tail p q → ResRel R (x p).2 (y q).2 ∧ Tail (x p).1 (y q).1

theorem Off.tail {a b : Option PyVal} {p q : Params} (h : Off "boundaryVersion" a b p q) : Tail p q := fun x hx _ => h.same x hx

theorem simW_step {a b : Option PyVal} {α β β' : Type} {S : β → β' → Prop} {x : PM α} {f : α → PM β} {g : α → PM β'}
    (hx : Sim "boundaryVersion" a b x) (hf : ∀ c, SimW a b S (f c) (g c)) : SimW a b S (x >>= f) (x >>= g) := by
  intro p q hpq
  obtain ⟨h1, h2⟩ := simV_of hx p q hpq
  show ResRel S (PM.bind x f p).2 (PM.bind x g q).2 ∧ Tail (PM.bind x f p).1 (PM.bind x g q).1
  unfold PM.bind
  rcases e : x p with ⟨p', r⟩
  rcases e' : x q with ⟨q', r'⟩
  rw [e, e'] at h1 h2
  cases h1 with
  | ok h => cases h; exact hf _ p' q' h2
  | early c => exact ⟨.early c, h2.tail⟩
  | err x c => exact ⟨.err x c, h2.tail⟩

theorem simT_step {α β β' : Type} {S : β → β' → Prop} {x : PM α} {f : α → PM β} {g : α → PM β'}
    (hx : ∀ a b, Sim "boundaryVersion" a b x) (hx' : ∀ a b, Sim "need_trend" a b x) (hf : ∀ c, SimT S (f c) (g c)) :
    SimT S (x >>= f) (x >>= g) := by
  intro p q hpq
  have h1 := hx (p "boundaryVersion") (q "boundaryVersion") p (fun y => if y = "boundaryVersion" then q y else p y)
    ⟨fun y hy => by simp [hy], rfl, by simp⟩
  have h2 := hx' (p "need_trend") (q "need_trend") (fun y => if y = "boundaryVersion" then q y else p y) q
    ⟨fun y hy => by
      by_cases hb : y = "boundaryVersion"
      · simp [hb]
      · simp only [hb, if_false]; exact hpq y hb hy, by simp, rfl⟩
  have he : (x p).2 = (x q).2 := h1.1.trans h2.1
  have ht : Tail (x p).1 (x q).1 := fun y hy hy' => (h1.2.same y hy).trans (h2.2.same y hy')
  show ResRel S (PM.bind x f p).2 (PM.bind x g q).2 ∧ Tail (PM.bind x f p).1 (PM.bind x g q).1
  unfold PM.bind
  rcases e : x p with ⟨p', r⟩
  rcases e' : x q with ⟨q', r'⟩
  rw [e, e'] at he ht
  simp only at he ht
  subst he
  cases r with
  | ok c => exact hf c p' q' ht
  | early c => exact ⟨.early c, ht⟩
  | err x c => exact ⟨.err x c, ht⟩

theorem boundary_run {p : Params} {bv : BoundaryVersion} (h : VersionOk (p "boundaryVersion") bv) :
    parseBoundary p = ((p.set "boundaryVersion" (.bver bv)).set "need_trend" (.bool (decide (bv ≠ .V1))), .ok bv) := by
  have hb : boundaryName p = pure bv := by
    unfold boundaryName presentKey
    rcases h with ⟨h | h | h, rfl⟩ | ⟨h, rfl⟩ | ⟨h, rfl⟩ <;> rw [h] <;> rfl
  show (boundaryName p >>= _ : PM _) p = _
  rw [hb]
  rfl

theorem simW_boundary {a b : Option PyVal} {bv bv' : BoundaryVersion} (ha : VersionOk a bv) (hb : VersionOk b bv') {β β' : Type}
    {S : β → β' → Prop} {f : BoundaryVersion → PM β} {g : BoundaryVersion → PM β'} (hf : SimT S (f bv) (g bv')) :
    SimW a b S (parseBoundary >>= f) (parseBoundary >>= g) := by
  intro p q hpq
  have h1 := boundary_run (p := p) (bv := bv) (by rw [hpq.left]; exact ha)
  have h2 := boundary_run (p := q) (bv := bv') (by rw [hpq.right]; exact hb)
  show ResRel S (PM.bind parseBoundary f p).2 (PM.bind parseBoundary g q).2 ∧ Tail (PM.bind parseBoundary f p).1 (PM.bind parseBoundary g q).1
  unfold PM.bind
  rw [h1, h2]
  refine hf _ _ fun x hx hx' => ?_
  rw [Params.set_ne _ _ hx', Params.set_ne _ _ hx', Params.set_ne _ _ hx, Params.set_ne _ _ hx]
  exact hpq.same x hx

theorem parseArg_boundary {a b : Option PyVal} {bv bv' : BoundaryVersion} (ha : VersionOk a bv) (hb : VersionOk b bv') (E : Env) (data : DataArg) :
    SimW a b (fun r r' : ParseResult => r' = { r with mp := { r.mp with needTrend := decide (bv' ≠ .V1) } } ∧ r.mp.needTrend = decide (bv ≠ .V1))
      (parseArg E data) (parseArg E data) := by
  have early : ∀ {α : Type} {R : α → α → Prop}, SimW a b R (PM.earlyNoCode : PM α) PM.earlyNoCode :=
    fun p q h => ⟨.early none, h.tail⟩
  unfold parseArg
  split
  · exact early
  · exact early
  · exact fun p q h => ⟨.err _ _, h.tail⟩
  split
  · exact early
  refine simW_step (sim_granularity (by decide)) fun g => ?_
  refine simW_step (sim_interval (by decide)) fun iv => ?_
  refine simW_step (sim_period (by decide)) fun _ => ?_
  refine simW_step (sim_alpha (by decide)) fun al => ?_
  refine simW_step (sim_ratio (by decide)) fun ra => ?_
  refine simW_step (sim_sensitivity (by decide)) fun _ => ?_
  refine simW_step (sim_threshold (by decide)) fun th => ?_
  refine simW_step (sim_default (by decide)) fun _ => ?_
  refine simW_step (sim_fill (by decide) (by decide) (by decide) (by decide)) fun fi => ?_
  refine simW_step (sim_default (by decide)) fun _ => ?_
  refine simW_step (sim_default (by decide)) fun sp => ?_
  refine simW_boundary ha hb ?_
  refine simT_step (fun _ _ => sim_detector (by decide)) (fun _ _ => sim_detector (by decide)) fun de => ?_
  refine simT_step (fun _ _ => sim_indices (by decide) (by decide) _ _ _ _ _ _) (fun _ _ => sim_indices (by decide) (by decide) _ _ _ _ _ _) fun ix => ?_
  exact fun p q h => ⟨.ok ⟨rfl, rfl⟩, h⟩

/-- the version that parsing leaves behind -/
theorem parsed_version {E : Env} {hasTs hasValue : Bool} {rows : List (PyVal × PyVal)} {p p' : Params} {mp : ModelParams}
    (hp : Parsed E hasTs hasValue rows p p' mp) {bv : BoundaryVersion} (h : VersionOk (p "boundaryVersion") bv) : paramBoundary p' = bv := by
  obtain ⟨b, h1, -, h2⟩ := hp.boundary
  unfold paramBoundary
  rw [h1]
  simp only
  unfold presentKey at h2
  rcases h with ⟨h | h | h, rfl⟩ | ⟨h, rfl⟩ | ⟨h, rfl⟩ <;> rw [h] at h2 <;>
    rcases h2 with ⟨h2, h3⟩ | ⟨s, h2, h3⟩ <;> first | exact h3 | (cases h2; cases h3; rfl) | cases h2

theorem finish_version {mode : PyVal} {stamps : List PyVal} {rows : List Row} {per : Nat} {model : ModelType}
    {bv bv' : BoundaryVersion} {g : Granularity} {sens : Int} (h : bv = .V1 ↔ bv' = .V1) :
    finish mode stamps rows per model sens bv g = finish mode stamps rows per model sens bv' g := by
  unfold finish getMargins getMarginsLast
  simp only [h]

theorem runModel_version {E : Env} {m : PyVal} {ht hv : Bool} {rows : List (PyVal × PyVal)} {mp : ModelParams} {p q : Params}
    (h1 : p "period" = q "period") (h2 : p "sensitivity" = q "sensitivity") (h3 : paramBoundary p = .V1 ↔ paramBoundary q = .V1) :
    runModel E m ht hv rows mp p = runModel E m ht hv rows mp q := by
  have ep : paramPeriod q = paramPeriod p := by unfold paramPeriod; rw [h1]
  have es : paramSens q = paramSens p := by unfold paramSens; rw [h2]
  unfold runModel
  rw [ep, es]
  simp only [finish_version h3]

/-! ### the properties -/

/-- **C134** (the versions other than V1 are one; absent, `None` and `"V1"` are one): two requests that differ only there
have the same outcome. -/
theorem C134_same {E : Env} (hE : E.WF) (W : Wild) (d : Detector) (data : DataArg) {p q : Params} {bv bv' : BoundaryVersion}
    (hp : VersionOk (p "boundaryVersion") bv) (hq : VersionOk (q "boundaryVersion") bv') (hb : bv = .V1 ↔ bv' = .V1)
    (hpq : ∀ x, x ≠ "boundaryVersion" → p x = q x) (hno : p "indices" = none) (hf : FiniteFill E data p) :
    (predict E W d data p).outcome = (predict E W d data q).outcome ∧
      (predict E W d data p).detector = (predict E W d data q).detector := by
  obtain ⟨e1, e2⟩ := parseArg_boundary hp hq E data p q ⟨hpq, rfl, rfl⟩
  unfold predict
  rcases h1 : parseArg E data p with ⟨p', x⟩
  rcases h2 : parseArg E data q with ⟨q', y⟩
  rw [h1, h2] at e1 e2
  simp only at e1 e2
  cases e1 with
  | early c => exact ⟨rfl, rfl⟩
  | err e c => exact ⟨rfl, rfl⟩
  | ok h =>
    rename_i r r'
    obtain ⟨hd, hP⟩ := parseArg_ok h1
    obtain ⟨-, hQ⟩ := parseArg_ok h2
    obtain ⟨h, ht⟩ := h
    have hr' : r' = r := by
      rw [h, show decide (bv' ≠ .V1) = r.mp.needTrend by rw [ht]; simp only [ne_eq, hb]]
    subst hr'
    simp only
    unfold afterParse
    have hmd : currentMode (d.update (some r'.code)).mode q' = currentMode (d.update (some r'.code)).mode p' := by
      unfold currentMode
      rw [e2 "detect_mode" (by decide) (by decide)]
    rw [hmd]
    cases hm : currentMode (d.update (some r'.code)).mode p' with
    | none => exact ⟨rfl, rfl⟩
    | some m =>
      simp only
      rw [← runModel_version (p := p') (q := q') (e2 "period" (by decide) (by decide)) (e2 "sensitivity" (by decide) (by decide))
        (by rw [parsed_version hP hp, parsed_version hQ hq]; exact hb)]
      have := parsed_modelled hE hP hno (hd ▸ hf) m
      cases hx : runModel E m r'.hasTs r'.hasValue r'.rows r'.mp p' with
      | ok items => exact ⟨rfl, rfl⟩
      | error s =>
        cases s with
        | err e => exact ⟨rfl, rfl⟩
        | unmodelled => exact absurd hx this

/-- **C134**: a request that is answered with version V2 or V3 is answered with V1, with the same timestamps, expected
values, period and suggested window; with `sensitivity` 100 also with the same anomalies. -/
theorem C134_versions {E : Env} (hE : E.WF) {W : Wild} {d : Detector} {data : DataArg} {p q : Params} {bv : BoundaryVersion}
    (hp : VersionOk (p "boundaryVersion") bv) (hb : bv ≠ .V1) (hq : VersionOk (q "boundaryVersion") .V1)
    (hpq : ∀ x, x ≠ "boundaryVersion" → p x = q x) (hno : p "indices" = none) (hf : FiniteFill E data p) {items : List Item}
    (h : (predict E W d data p).outcome = .ok items) :
    ∃ items', (predict E W d data q).outcome = .ok items' ∧ items'.length = items.length ∧
      ∀ (k : Nat) (a b : Item), items[k]? = some a → items'[k]? = some b →
        b.timestamp = a.timestamp ∧ b.expected = a.expected ∧ b.period = a.period ∧ b.suggested = a.suggested ∧
        (∀ v, p "sensitivity" = some v → IsInt v 100 → b.anom = a.anom) := by
  obtain ⟨p', r, m, h1, h2, h3⟩ := predict_cases h
  obtain ⟨hd, hP⟩ := parseArg_ok h1
  have hrun : runModel E m r.hasTs r.hasValue r.rows r.mp p' = .ok items := by
    rcases h3 with h3 | ⟨h3, -⟩
    · exact h3
    · exact absurd h3 (parsed_modelled hE hP hno (hd ▸ hf) m)
  obtain ⟨e1, e2⟩ := parseArg_boundary hp hq E data p q ⟨hpq, rfl, rfl⟩
  rcases g2 : parseArg E data q with ⟨q', y⟩
  rw [h1, g2] at e1 e2
  simp only at e1 e2
  cases e1 with
  | ok h =>
    rename_i r'
    obtain ⟨h, ht⟩ := h
    obtain ⟨-, hQ⟩ := parseArg_ok g2
    have ht' : r.mp.needTrend = true := by rw [ht]; exact decide_eq_true hb
    obtain ⟨items', h5, h6⟩ := runModel_bare (q := q') ht' (e2 "period" (by decide) (by decide)) (e2 "sensitivity" (by decide) (by decide))
      (parsed_version hQ hq) hrun
    have hm : currentMode d.mode q' = some m := by
      rw [← h2]
      unfold currentMode
      rw [e2 "detect_mode" (by decide) (by decide)]
    refine ⟨items', predict_of_run g2 hm ?_, h6.length_eq.symm, ?_⟩
    · rw [h]
      exact h5
    · intro k a b ha hb'
      obtain ⟨i1, rfl⟩ := List.getElem?_eq_some_iff.1 ha
      obtain ⟨i2, rfl⟩ := List.getElem?_eq_some_iff.1 hb'
      have hk := (List.forall₂_iff_get.1 h6).2 k i1 i2
      refine ⟨hk.timestamp, hk.expected, hk.period, hk.suggested, fun v hv hi => hk.anom ?_⟩
      have : p' "sensitivity" = some v := by
        rcases hP.sensitivity with ⟨h, -⟩ | ⟨v', i, h, -, -, -, h'⟩
        · rw [hv] at h; cases h
        · rw [hv] at h; cases h; exact h'
      unfold paramSens
      rw [this]
      show ((v.asInt?).getD 99) = 100
      rw [asInt_of_isInt hi]
      rfl

/-- **C134** (the version decides what is reported, not what is found): an anomaly reported with some version at some
`sensitivity` is reported with every other version at `sensitivity` 100, if that request is answered. -/
theorem C134_found {E : Env} (hE : E.WF) {W : Wild} {d : Detector} {data : DataArg} {p q : Params} {bv bv' : BoundaryVersion}
    (hp : VersionOk (p "boundaryVersion") bv) (hq : VersionOk (q "boundaryVersion") bv')
    {v w : PyVal} {s : Int} (hv : p "sensitivity" = some v) (hs : IsInt v s) (h0 : 0 ≤ s) (h1 : s ≤ 100)
    (hw : q "sensitivity" = some w) (hw' : IsInt w 100)
    (hpq : ∀ x, x ≠ "boundaryVersion" → x ≠ "sensitivity" → p x = q x) (hno : p "indices" = none) (hf : FiniteFill E data p)
    {items items' : List Item} (h : (predict E W d data p).outcome = .ok items) (h' : (predict E W d data q).outcome = .ok items') :
    items'.length = items.length ∧ ∀ (k : Nat) (a b : Item), items[k]? = some a → items'[k]? = some b →
      b.timestamp = a.timestamp ∧ b.expected = a.expected ∧ (a.anom = true → b.anom = true) := by
  have hset : p = p.set "sensitivity" v := by
    funext x
    by_cases hx : x = "sensitivity"
    · subst hx; simp [hv]
    · rw [Params.set_ne _ _ hx]
  rw [hset] at h
  obtain ⟨mid, m1, m2, m3⟩ := C18_sensitivity_monotone hE hs hw' h0 h1 (le_refl _) hno hf h
  have hagree : ∀ x, x ≠ "boundaryVersion" → (p.set "sensitivity" w) x = q x := by
    intro x hx
    by_cases hx' : x = "sensitivity"
    · subst hx'; simp [hw]
    · rw [Params.set_ne _ _ hx']; exact hpq x hx hx'
  have hp' : VersionOk ((p.set "sensitivity" w) "boundaryVersion") bv := by
    rw [Params.set_ne _ _ (by decide)]; exact hp
  have hno' : (p.set "sensitivity" w) "indices" = none := by
    rw [Params.set_ne _ _ (by decide)]; exact hno
  have hf' : FiniteFill E data (p.set "sensitivity" w) := hf.set w (by decide)
  have hnoq : q "indices" = none := by rw [← hagree "indices" (by decide)]; exact hno'
  have hfq : FiniteFill E data q := by
    unfold FiniteFill Positions requested at hf' ⊢
    rw [← hagree "imputeMode" (by decide), ← hagree "fixedValue" (by decide), ← hagree "granularity" (by decide),
      ← hagree "customInterval" (by decide)]
    exact hf'
  have key : items'.length = mid.length ∧ ∀ (k : Nat) (a b : Item), mid[k]? = some a → items'[k]? = some b →
      b.timestamp = a.timestamp ∧ b.expected = a.expected ∧ b.anom = a.anom := by
    by_cases hsame : bv = .V1 ↔ bv' = .V1
    · have := (C134_same hE W d data hp' hq hsame hagree hno' hf').1
      rw [m1, h'] at this
      cases this
      refine ⟨rfl, fun k a b ha hb => ?_⟩
      rw [ha] at hb
      cases hb
      exact ⟨rfl, rfl, rfl⟩
    · by_cases hb : bv = .V1
      · have hb' : bv' ≠ .V1 := fun e => hsame ⟨fun _ => e, fun _ => hb⟩
        subst hb
        obtain ⟨l, l1, l2, l3⟩ := C134_versions hE hq hb' hp' (fun x hx => (hagree x hx).symm) hnoq hfq h'
        rw [m1] at l1
        cases l1
        refine ⟨l2.symm, fun k a b ha hb => ?_⟩
        obtain ⟨n1, n2, -, -, n5⟩ := l3 k b a hb ha
        exact ⟨n1.symm, n2.symm, (n5 w hw hw').symm⟩
      · have hb' : bv' = .V1 := by
          by_contra hc
          exact hsame ⟨fun e => absurd e hb, fun e => absurd e hc⟩
        subst hb'
        obtain ⟨l, l1, l2, l3⟩ := C134_versions hE hp' hb hq hagree hno' hf' m1
        rw [h'] at l1
        cases l1
        refine ⟨l2, fun k a b ha hb => ?_⟩
        obtain ⟨n1, n2, -, -, n5⟩ := l3 k a b ha hb
        exact ⟨n1, n2, n5 w (by simp) hw'⟩
  refine ⟨key.1.trans m2, fun k a b ha hb => ?_⟩
  have hk : k < mid.length := by
    rw [m2]
    exact (List.getElem?_eq_some_iff.1 ha).1
  obtain ⟨a1, a2, -, a4, -, -⟩ := m3 k a mid[k] ha (List.getElem?_eq_getElem hk)
  obtain ⟨b1, b2, b3⟩ := key.2 k mid[k] b (List.getElem?_eq_getElem hk) hb
  exact ⟨b1.trans a1, b2.trans a2, fun e => b3.trans (a4 e)⟩

/-! ### what the version can change -/

/-- a series with a large and some small spikes -/
def smallSpikes : List Int := [100, 101, 100, 101, 100, 101, 100, 103, 100, 101, 100, 101, 100, 150]

/-- a request with a version and a sensitivity -/
def versionParams (v : String) (s : Int) : Params := optParams "none" 1 [("boundaryVersion", .str v), ("sensitivity", .int s)]

theorem versionParams_off (v w : String) (s : Int) : ∀ x, x ≠ "boundaryVersion" → versionParams v s x = versionParams w s x := by
  intro x hx
  simp [versionParams, optParams, Params.ofList, Params.set, hx]

/-- **C134** (below `sensitivity` 100 the version counts): at 99 V2 reports anomalies that V1 does not report, at 60 V1
reports one that V2 does not report. -/
theorem C134_flags : ∃ (E : Env) (rows : List (PyVal × PyVal)), E.WF ∧
    flaggedIn (predict E demoWild entireDetector (.frame true true rows) (versionParams "V1" 99)) =
      some [false, false, false, false, false, false, false, true, false, false, false, false, false, true] ∧
    flaggedIn (predict E demoWild entireDetector (.frame true true rows) (versionParams "V2" 99)) =
      some [false, false, false, false, false, false, false, true, false, true, false, true, false, true] ∧
    flaggedIn (predict E demoWild entireDetector (.frame true true rows) (versionParams "V1" 60)) =
      some [false, false, false, false, false, false, false, false, false, false, false, false, false, true] ∧
    flaggedIn (predict E demoWild entireDetector (.frame true true rows) (versionParams "V2" 60)) =
      some [false, false, false, false, false, false, false, false, false, false, false, false, false, false] := by
  refine ⟨demoEnv, demoRows smallSpikes 60, demoEnv_WF, ?_, ?_, ?_, ?_⟩ <;> decide +kernel

/-- **C134** (the converse of `C134_versions` fails): V2 needs a trend; when the trend fit raises, a request that V1 answers
fails with V2. -/
theorem C134_raises : ∃ (E : Env) (rows : List (PyVal × PyVal)), E.WF ∧
    okLen (predict E demoWild entireDetector (.frame true true rows) (optParams "minutely" 1 [("boundaryVersion", .str "V1")])) = some 14 ∧
    errOf (predict E demoWild entireDetector (.frame true true rows) (optParams "minutely" 1 [("boundaryVersion", .str "V2")])) = some .exception := by
  refine ⟨pickyEnv, demoRows spiked 60, pickyEnv_WF, ?_, ?_⟩ <;> decide +kernel

theorem answered_of_flags {r : CallResult} {l : List Bool} (h : flaggedIn r = some l) : ∃ items, r.outcome = .ok items ∧ items.map (·.anom) = l := by
  unfold flaggedIn at h
  split at h
  · rename_i items e
    cases h
    exact ⟨items, e, rfl⟩
  · cases h

/-- `C134_versions` at `sensitivity` 100, for an answer with four anomalies -/
example : ∃ items items' : List Item,
    (predict demoEnv demoWild entireDetector (.frame true true (demoRows smallSpikes 60)) (versionParams "V2" 100)).outcome = .ok items ∧
    (predict demoEnv demoWild entireDetector (.frame true true (demoRows smallSpikes 60)) (versionParams "V1" 100)).outcome = .ok items' ∧
    items.map (·.anom) = [false, false, false, false, false, false, false, true, false, true, false, true, false, true] ∧
    ∀ (k : Nat) (a b : Item), items[k]? = some a → items'[k]? = some b → b.expected = a.expected ∧ b.anom = a.anom := by
  obtain ⟨items, h1, h2⟩ := answered_of_flags (r := predict demoEnv demoWild entireDetector (.frame true true (demoRows smallSpikes 60))
    (versionParams "V2" 100)) (l := [false, false, false, false, false, false, false, true, false, true, false, true, false, true])
    (by decide +kernel)
  obtain ⟨items', h3, -, h4⟩ := C134_versions demoEnv_WF (bv := .V2) (q := versionParams "V1" 100) (.inr (.inl ⟨rfl, rfl⟩)) (by decide)
    (.inl ⟨.inr (.inr rfl), rfl⟩) (versionParams_off _ _ _) rfl (.inl ⟨(by intro h; cases h), fun f h => by cases h⟩) h1
  refine ⟨items, items', h1, h3, h2, fun k a b ha hb => ?_⟩
  obtain ⟨-, h, -, -, h'⟩ := h4 k a b ha hb
  exact ⟨h, h' (.int 100) rfl (.int 100)⟩

/-- `C134_same` for V2 and V3, and an answer -/
example : ∃ items, (predict demoEnv demoWild entireDetector (.frame true true (demoRows smallSpikes 60)) (versionParams "V2" 99)).outcome = .ok items ∧
    (predict demoEnv demoWild entireDetector (.frame true true (demoRows smallSpikes 60)) (versionParams "V3" 99)).outcome = .ok items := by
  obtain ⟨items, h1, -⟩ := answered_of_flags (r := predict demoEnv demoWild entireDetector (.frame true true (demoRows smallSpikes 60))
    (versionParams "V2" 99)) (l := [false, false, false, false, false, false, false, true, false, true, false, true, false, true])
    (by decide +kernel)
  refine ⟨items, h1, ?_⟩
  rw [← h1]
  exact (C134_same demoEnv_WF demoWild entireDetector _ (bv := .V3) (bv' := .V2) (.inr (.inr ⟨rfl, rfl⟩)) (.inr (.inl ⟨rfl, rfl⟩)) (by decide)
    (versionParams_off _ _ _) rfl (.inl ⟨(by intro h; cases h), fun f h => by cases h⟩)).1

/-- `C134_found` from V1 at 60 to V2 at 100 -/
example : ∃ items items' : List Item,
    (predict demoEnv demoWild entireDetector (.frame true true (demoRows smallSpikes 60)) (versionParams "V1" 60)).outcome = .ok items ∧
    (predict demoEnv demoWild entireDetector (.frame true true (demoRows smallSpikes 60)) (versionParams "V2" 100)).outcome = .ok items' ∧
    items.map (·.anom) = [false, false, false, false, false, false, false, false, false, false, false, false, false, true] ∧
    ∀ (k : Nat) (a b : Item), items[k]? = some a → items'[k]? = some b → a.anom = true → b.anom = true := by
  obtain ⟨items, h1, h2⟩ := answered_of_flags (r := predict demoEnv demoWild entireDetector (.frame true true (demoRows smallSpikes 60))
    (versionParams "V1" 60)) (l := [false, false, false, false, false, false, false, false, false, false, false, false, false, true])
    (by decide +kernel)
  obtain ⟨items', h3, -⟩ := answered_of_flags (r := predict demoEnv demoWild entireDetector (.frame true true (demoRows smallSpikes 60))
    (versionParams "V2" 100)) (l := [false, false, false, false, false, false, false, true, false, true, false, true, false, true])
    (by decide +kernel)
  refine ⟨items, items', h1, h3, h2, fun k a b ha hb => ?_⟩
  exact ((C134_found demoEnv_WF (bv := .V1) (bv' := .V2) (.inl ⟨.inr (.inr rfl), rfl⟩) (.inr (.inl ⟨rfl, rfl⟩)) rfl (.int 60) (by decide) (by decide)
    rfl (.int 100) (fun x hx hx' => by simp [versionParams, optParams, Params.ofList, Params.set, hx, hx']) rfl
    (.inl ⟨(by intro h; cases h), fun f h => by cases h⟩) h1 h3).2 k a b ha hb).2.2

end Verif
