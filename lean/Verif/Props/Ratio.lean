import Verif.Props.Latest
import Verif.Props.Unused

/-!
# The share of anomalies (C130)

What happens when `maxAnomalyRatio` is raised.
-/

namespace Verif

open Spec

/-! ### the spectral residual model on a whole series -/

theorem srDetection_entire {E : Env} {s : List ℚ} {th : PyFloat} {r : ℚ} {nt : Bool} {rows : List Row} {model : ModelType}
    (h : srDetection E s th r nt false = .ok (rows, model)) :
    ∃ sc tr, spectralScore E s true = .ok sc ∧
      srTrend nt s.length (trendDetection E (srExpectedEntire s (sc.map fun x => decide (x ≤ 1))) none) = .ok tr ∧
      rows = assemble s (srExpectedEntire s (sc.map fun x => decide (x ≤ 1))) tr
        (some (sc.map fun x => npClip (x - (35 / 10) / (15 - 35 / 10)) 0 1))
        (srFlagged E th s.length sc (max ((dmul s.length r).floor.toNat) 1)) := by
  unfold srDetection at h
  obtain ⟨⟨sc, md⟩, h1, h⟩ := ebind_ok.1 h
  unfold srScores at h1
  simp only [Bool.false_eq_true, if_false] at h1
  obtain ⟨sc', h2, h1⟩ := ebind_ok.1 h1
  have h1 := epure_ok.1 h1
  simp only [Prod.mk.injEq] at h1
  obtain ⟨rfl, rfl⟩ := h1
  simp only [Bool.false_eq_true, if_false] at h
  obtain ⟨tr, h3, h⟩ := ebind_ok.1 h
  have h := epure_ok.1 h
  simp only [Prod.mk.injEq] at h
  exact ⟨sc', tr, h2, h3, h.1.symm⟩

theorem srFlagged_nodup {E : Env} (hE : E.WF) (th : PyFloat) (n : Nat) (sc : List ℚ) (m : Nat) :
    (srFlagged E th n sc m).Nodup ∧ ∀ i ∈ srFlagged E th n sc m, i < n := by
  unfold srFlagged
  dsimp only
  generalize hfl : ((List.range n).filter fun i => th.le (.fin (sc.getD i 0))) = fl
  have hfn : fl.Nodup := hfl ▸ List.nodup_range.filter _
  have hin : ∀ i ∈ fl, i < n := fun i hi => List.mem_range.1 (List.mem_of_mem_filter (hfl ▸ hi))
  have hp := hE.argsortDesc_perm (fl.map fun i => sc.getD i 0)
  generalize E.argsortDesc (fl.map fun i => sc.getD i 0) = o at hp
  rw [List.length_map] at hp
  have hlt : ∀ k ∈ o, k < fl.length := fun k hk => List.mem_range.1 (hp.mem_iff.1 hk)
  have hget : ∀ k (hk : k < fl.length), fl.getD k 0 = fl[k] := fun k hk => by simp [hk]
  constructor
  · refine List.Nodup.map_on ?_ ((hp.nodup_iff.2 List.nodup_range).sublist (List.take_sublist _ _))
    intro a ha b hb e
    have ha := hlt a (List.mem_of_mem_take ha)
    have hb := hlt b (List.mem_of_mem_take hb)
    rw [hget a ha, hget b hb] at e
    exact (hfn.getElem_inj_iff).1 e
  · intro i hi
    obtain ⟨k, hk, rfl⟩ := List.mem_map.1 hi
    have hk := hlt k (List.mem_of_mem_take hk)
    rw [hget k hk]
    exact hin _ (List.getElem_mem hk)

theorem srFlagged_more (E : Env) (th : PyFloat) (n : Nat) (sc : List ℚ) {m m' : Nat} (h : m ≤ m') :
    (∀ i ∈ srFlagged E th n sc m, i ∈ srFlagged E th n sc m') ∧
    ((srFlagged E th n sc m).length < m → srFlagged E th n sc m' = srFlagged E th n sc m) := by
  unfold srFlagged
  dsimp only
  generalize ((List.range n).filter fun i => th.le (.fin (sc.getD i 0))) = fl
  generalize E.argsortDesc (fl.map fun i => sc.getD i 0) = o
  constructor
  · intro i hi
    obtain ⟨k, hk, rfl⟩ := List.mem_map.1 hi
    exact List.mem_map.2 ⟨k, (List.take_prefix_take_left h).subset hk, rfl⟩
  · intro hl
    rw [List.length_map, List.length_take] at hl
    rw [List.take_of_length_le (by omega), List.take_of_length_le (by omega)]

theorem flagged_assemble_eq {values e : List ℚ} {t s : Option (List ℚ)} {an : List Nat} (hn : an.Nodup)
    (hi : ∀ i ∈ an, i < values.length) : flagged (assemble values e t s an) = an.length := by
  unfold flagged assemble
  rw [List.countP_map, List.countP_eq_length_filter]
  refine List.Perm.length_eq ((List.perm_ext_iff_of_nodup (List.nodup_range.filter _) hn).2 fun i => ?_)
  simp only [List.mem_filter, List.mem_range, Function.comp, List.contains_iff_mem]
  exact ⟨fun h => h.2, fun h => ⟨hi i h, h⟩⟩

/-- the anomalies of the first frame are rows of the second -/
def KeepsAnomalies (rows rows' : List Row) : Prop :=
  rows'.length = rows.length ∧ ∀ (i : Nat) (r r' : Row), rows[i]? = some r → rows'[i]? = some r' → r.anom = true → r' = r

theorem keeps_refl (rows : List Row) : KeepsAnomalies rows rows :=
  ⟨rfl, fun i r r' h h' _ => by rw [h] at h'; exact (Option.some.inj h').symm⟩

theorem keeps_assemble {values e : List ℚ} {t s : Option (List ℚ)} {an an' : List Nat} (h : ∀ i ∈ an, i ∈ an') :
    KeepsAnomalies (assemble values e t s an) (assemble values e t s an') := by
  refine ⟨by simp [assemble], fun i r r' hr hr' ha => ?_⟩
  simp only [assemble, List.getElem?_map, Option.map_eq_some_iff] at hr hr'
  obtain ⟨j, hj, rfl⟩ := hr
  obtain ⟨j', hj', rfl⟩ := hr'
  rw [hj] at hj'
  cases hj'
  have h1 : an.contains j = true := ha
  have h2 : an'.contains j = true := by
    rw [List.contains_iff_mem] at h1 ⊢
    exact h j h1
  simp only [h1, h2]

theorem budget_mono (n : Nat) {r r' : ℚ} (h : r ≤ r') : max ((dmul n r).floor.toNat) 1 ≤ max ((dmul n r').floor.toNat) 1 := by
  have h1 : dmul n r ≤ dmul n r' := roundSigned_mono (mul_le_mul_of_nonneg_left h (by exact_mod_cast n.zero_le))
  have h2 : (dmul n r).floor ≤ (dmul n r').floor := by
    rw [Rat.le_floor_iff]
    exact (Rat.le_floor_iff.1 le_rfl).trans h1
  omega

/-- the frames of the spectral residual model for two ratios -/
theorem sr_ratio {E : Env} (hE : E.WF) {s : List ℚ} {th : PyFloat} {r r' : ℚ} (hr : r ≤ r') {nt : Bool} {rows rows' : List Row}
    {model model' : ModelType} (h : srDetection E s th r nt false = .ok (rows, model))
    (h' : srDetection E s th r' nt false = .ok (rows', model')) :
    KeepsAnomalies rows rows' ∧ (flagged rows < max ((dmul s.length r).floor.toNat) 1 → rows' = rows) ∧
      rows'.map (·.expected) = rows.map (·.expected) ∧ (rows'.map fun x => x.trend.getD 0) = (rows.map fun x => x.trend.getD 0) := by
  obtain ⟨sc, tr, a1, a2, rfl⟩ := srDetection_entire h
  obtain ⟨sc', tr', b1, b2, rfl⟩ := srDetection_entire h'
  rw [a1] at b1
  cases b1
  rw [a2] at b2
  cases b2
  obtain ⟨m1, m2⟩ := srFlagged_more E th s.length sc (budget_mono s.length hr)
  obtain ⟨n1, n2⟩ := srFlagged_nodup hE th s.length sc (max ((dmul s.length r).floor.toNat) 1)
  refine ⟨keeps_assemble m1, fun hl => ?_, ?_⟩
  · rw [flagged_assemble_eq n1 n2] at hl
    rw [m2 hl]
  · simp [assemble, Function.comp_def]

/-! ### the second pass -/

theorem mergeWithDelta_full {E : Env} {rows out : List Row} {series : List ℚ} {ratio : ℚ}
    {run : List ℚ → ℚ → Except PyErr (List Row × ModelType)} (h : mergeWithDelta E rows series ratio run = .ok out) :
    (out = rows ∧ ∀ delta ds, shouldIncludeDelta E series = .ok (some (delta, ds)) → delta ≠ 0 →
      max ((dmul ds.length ratio).floor.toNat) 1 ≤ flagged rows) ∨
    ∃ (delta : Nat) (ds : List ℚ) (drows : List Row) (md : ModelType) (newE newT : List ℚ),
      shouldIncludeDelta E series = .ok (some (delta, ds)) ∧ delta ≠ 0 ∧ ds.length = series.length ∧
      flagged rows < max ((dmul ds.length ratio).floor.toNat) 1 ∧
      run ds (ddiv ((max ((dmul ds.length ratio).floor.toNat) 1 - flagged rows : Nat) : ℚ) ds.length) = .ok (drows, md) ∧
      undelta delta (rows.map (·.value)) (drows.map (·.expected)) = .ok newE ∧
      undelta delta (rows.map (·.value)) (drows.map fun r => r.trend.getD 0) = .ok newT ∧
      out = mergeRows rows drows newE newT := by
  rw [← flagged_filter]
  unfold mergeWithDelta at h
  obtain ⟨o, ho, h⟩ := ebind_ok.1 h
  split at h
  · refine .inl ⟨(epure_ok.1 h).symm, fun delta ds h' => ?_⟩
    rw [ho] at h'
    cases h'
  · refine .inl ⟨(epure_ok.1 h).symm, fun delta ds h' hd => ?_⟩
    rw [ho] at h'
    cases h'
    exact absurd rfl hd
  · rename_i delta ds hd
    dsimp only at h
    split at h
    · rename_i hlt
      obtain ⟨⟨drows, md⟩, h1, h⟩ := ebind_ok.1 h
      obtain ⟨newE, h2, h⟩ := ebind_ok.1 h
      obtain ⟨newT, h3, h⟩ := ebind_ok.1 h
      exact .inr ⟨delta, ds, drows, md, newE, newT, ho, hd, (deltaLoop_len ho).1, hlt, h1, h2, h3, (epure_ok.1 h).symm⟩
    · rename_i hlt
      refine .inl ⟨(epure_ok.1 h).symm, fun delta ds h' _ => ?_⟩
      rw [ho] at h'
      cases h'
      exact not_lt.1 hlt

theorem sr_len_ratio {E : Env} {s : List ℚ} {th : PyFloat} {r : ℚ} {nt : Bool} {rows : List Row} {model : ModelType}
    (h : srDetection E s th r nt false = .ok (rows, model)) : rows.length = s.length := by
  obtain ⟨sc, tr, -, -, rfl⟩ := srDetection_entire h
  simp [assemble]

theorem keeps_merge {rows rows' drows' : List Row} {newE' newT' : List ℚ} (h : KeepsAnomalies rows rows')
    (hl : drows'.length = rows.length) : KeepsAnomalies rows (mergeRows rows' drows' newE' newT') := by
  have hl' : drows'.length = rows'.length := by rw [hl, h.1]
  refine ⟨?_, fun i r r' hr hr' ha => ?_⟩
  · simp [mergeRows, hl', h.1]
  · obtain ⟨h1, e1⟩ := List.getElem?_eq_some_iff.1 hr
    have h1' : i < rows'.length := by rw [h.1]; exact h1
    obtain ⟨h3, rfl⟩ := List.getElem?_eq_some_iff.1 hr'
    have e2 := h.2 i r _ hr (List.getElem?_eq_getElem h1') ha
    rw [getElem_mergeRows hl' h1']
    simp [e2, ha]

/-- raising the ratio keeps the anomalies of the spectral residual model, both passes -/
theorem run_ratio {E : Env} (hE : E.WF) {M M' : Model} (hth : M'.threshold = M.threshold) (hnt : M'.needTrend = M.needTrend)
    (hg : M'.gran = M.gran) (hi : M'.interval = M.interval) {series : List ℚ} {r r' : ℚ} (hr : r ≤ r') {p : Nat} (hp : ¬ 1 < p)
    (hs : shouldTriggerSr E M.gran M.interval series = true) {rows rows' : List Row} {md md' : ModelType}
    (h : M.run E series r p false = .ok (rows, md)) (h' : M'.run E series r' p false = .ok (rows', md')) :
    KeepsAnomalies rows rows' := by
  unfold Model.run at h h'
  rw [hg, hi] at h'
  simp only [if_neg hp, hs, if_true, hth, hnt] at h h'
  obtain ⟨⟨rows0, m0⟩, a1, h⟩ := ebind_ok.1 h
  obtain ⟨out, a2, h⟩ := ebind_ok.1 h
  obtain ⟨⟨rows0', m0'⟩, b1, h'⟩ := ebind_ok.1 h'
  obtain ⟨out', b2, h'⟩ := ebind_ok.1 h'
  have h := epure_ok.1 h
  have h' := epure_ok.1 h'
  simp only [Prod.mk.injEq] at h h'
  obtain ⟨rfl, rfl⟩ := h
  obtain ⟨rfl, rfl⟩ := h'
  obtain ⟨k1, k2, -⟩ := sr_ratio hE hr a1 b1
  have l0 := sr_len_ratio a1
  rcases mergeWithDelta_full a2 with ⟨rfl, c1⟩ | ⟨delta, ds, drows, md, newE, newT, c1, c2, c3, c4, c5, c6, c7, rfl⟩
  · rcases mergeWithDelta_full b2 with ⟨rfl, -⟩ | ⟨delta', ds', drows', md', newE', newT', d1, d2, d3, d4, d5, d6, d7, rfl⟩
    · exact k1
    · exact keeps_merge k1 (by rw [sr_len_ratio d5, d3, l0])
  · rw [c3] at c4
    have e0 := k2 c4
    subst e0
    have hb := budget_mono series.length hr
    rcases mergeWithDelta_full b2 with ⟨rfl, d1⟩ | ⟨delta', ds', drows', md', newE', newT', d1, d2, d3, d4, d5, d6, d7, rfl⟩
    · have := d1 delta ds c1 c2
      rw [c3] at this
      dsimp only at this c4
      omega
    · rw [c1] at d1
      cases d1
      rw [c3] at c5 d5
      obtain ⟨⟨f0, f1⟩, -, f2, f3⟩ := sr_ratio hE (ddiv_mono (Nat.sub_le_sub_right hb (flagged rows0'))) c5 d5
      rw [f2, c6] at d6
      cases d6
      rw [f3, c7] at d7
      cases d7
      have l1 : drows.length = rows0'.length := by rw [sr_len_ratio c5, c3, l0]
      have l2 : drows'.length = rows0'.length := by rw [f0, l1]
      refine ⟨by simp [mergeRows, l1, l2], fun i x x' hx hx' ha => ?_⟩
      obtain ⟨g1, rfl⟩ := List.getElem?_eq_some_iff.1 hx
      obtain ⟨g1', rfl⟩ := List.getElem?_eq_some_iff.1 hx'
      have hi : i < rows0'.length := by simpa [mergeRows, l1] using g1
      rw [getElem_mergeRows l1 hi] at ha ⊢
      rw [getElem_mergeRows l2 hi]
      cases e1 : rows0'[i].anom with
      | true => simp
      | false =>
        cases e2 : drows[i].anom with
        | false => simp [e1, e2] at ha
        | true =>
          have e3 := f1 i _ _ (List.getElem?_eq_getElem (by omega)) (List.getElem?_eq_getElem (by omega)) e2
          simp only [e3, e2]

/-! ### the calls -/

/-- a request that the spectral residual model answers without filling -/
structure Spec.SrRequest (E : Env) (data : DataArg) (params : Params) (n : Int) : Prop where
  period : NamesPeriod params n
  small : n ≤ 1
  fine : FineGrained params
  unfilled : NoFillMode params
  scattered : Scattered E.parseFloat E.gaussC data

theorem Spec.SrRequest.set {E : Env} {data : DataArg} {params : Params} {n : Int} (h : SrRequest E data params n) (v : PyVal) :
    SrRequest E data (params.set "maxAnomalyRatio" v) n := by
  obtain ⟨h1, h2, h3, h4, h5⟩ := h
  refine ⟨?_, h2, ?_, ?_, h5⟩
  · unfold NamesPeriod at *
    rwa [Params.set_ne _ _ (by decide)]
  · unfold FineGrained at *
    rwa [Params.set_ne _ _ (by decide), Params.set_ne _ _ (by decide)]
  · unfold NoFillMode at *
    rwa [Params.set_ne _ _ (by decide), Params.set_ne _ _ (by decide)]

theorem mapM_finite_fin (l : List ℚ) : (l.map PyFloat.fin).mapM finite? = some l := by
  induction l with
  | nil => rfl
  | cons q t ih => simp [List.mapM_cons, ih, finite?]

theorem Trace.sr {E : Env} {d : Detector} {data : DataArg} {params : Params} {items : List Item} (T : Trace E d data params items)
    {n : Int} (h : SrRequest E data params n) :
    shouldTriggerSr E T.M.gran T.M.interval T.M.values = true ∧ ¬ 1 < T.period ∧ T.period = n.toNat ∧
      T.M.run E T.M.values T.ratio T.period (isLatest T.mode) = .ok (T.frame0, T.model) := by
  have hsel := T.selected
  obtain ⟨-, hper⟩ := paramPeriod_named T.parsed h.period
  have hp : T.period = n.toNat := by
    rcases hsel.per with e | ⟨e, -⟩ <;> rw [hper] at e
    · exact (Option.some.inj e).symm
    · cases e
  have hle : ¬ 1 < T.period := by
    have := h.small
    omega
  have hauto : T.M.mode = .auto := by
    rw [T.configured.mode]
    have hnone : ∀ key, (params key = none ∨ params key = some .none) → presentKey params key = none := by
      intro key h
      unfold presentKey
      rcases h with h | h <;> rw [h]
    rcases T.parsed.fill with ⟨s, h', -⟩ | ⟨-, -, h'⟩ | ⟨s, -, h', -⟩
    · rw [hnone _ h.unfilled.1] at h'; cases h'
    · cases h2 : T.mp.fillMode with
      | none => rfl
      | some x => rw [h2] at h'; cases h'
    · rw [hnone _ h.unfilled.2] at h'; cases h'
  have hfull : T.full = none := by
    rcases hsel.fills with ⟨h1 | h1, -⟩ | ⟨-, h1⟩
    · exact absurd h1 hle
    · rw [hauto] at h1
      unfold FillUpMode.always at h1
      simp at h1
    · exact h1
  have hout := hsel.out
  have hrun := hsel.run
  rw [hfull] at hout hrun
  dsimp only at hout
  rw [← hout] at hrun
  refine ⟨?_, hle, hp, hrun⟩
  have hmad : EPS ≤ E.mad T.M.values := by
    have hs := h.scattered
    rw [T.isFrame] at hs
    obtain ⟨l, med, mad, hlen, hrow, hmed, hmd, hge⟩ := hs
    have hl : T.M.values = l := values_eq T.validated.values (mapM_finite_fin _) hlen hrow
    rw [hl]
    have hne : l ≠ [] := by
      rintro rfl
      exact T.parsed.nonempty hlen.symm
    obtain ⟨med', mad', h1, h2, h3⟩ := mad_spec E hne
    cases h1.unique hmed
    cases h2.unique hmd
    rw [h3]
    unfold EPS
    norm_num at hge ⊢
    exact hge
  rw [T.configured.gran, T.configured.interval]
  exact is_fine T.parsed h.fine hmad

/-- **C130** In ENTIRE mode with sensitivity 100, raising `maxAnomalyRatio` keeps every reported anomaly, if the request names a period of at most 1, its
granularity is minutes (fewer than 60 at a time) or seconds (fewer than 3600 at a time), no way of filling gaps is named, and the values are scattered. -/
theorem C130_raise {E : Env} (hE : E.WF) {W : Wild} {d : Detector} {data : DataArg} {params : Params} {r r' : ℚ} (hr : r ≤ r')
    (hno : params "indices" = none) (hf : FiniteFill E data params) (hm : InMode d params .ENTIRE)
    {v : PyVal} (hs : params "sensitivity" = some v) (hv : IsInt v 100)
    {n : Int} (hq : SrRequest E data params n) {items items' : List Item}
    (h : (predict E W d data (params.set "maxAnomalyRatio" (.float (.fin r)))).outcome = .ok items)
    (h' : (predict E W d data (params.set "maxAnomalyRatio" (.float (.fin r')))).outcome = .ok items') :
    items'.length = items.length ∧
      ∀ (k : Nat) (a b : Item), items[k]? = some a → items'[k]? = some b → a.anom = true → b.anom = true := by
  have hset : ∀ (v : PyVal) (k : String), k ≠ "maxAnomalyRatio" → params.set "maxAnomalyRatio" v k = params k := fun v k hk => Params.set_ne _ _ hk
  obtain ⟨T⟩ := predict_trace hE (by rw [hset _ _ (by decide)]; exact hno) (hf.set _ (by decide)) h
  obtain ⟨T'⟩ := predict_trace hE (by rw [hset _ _ (by decide)]; exact hno) (hf.set _ (by decide)) h'
  have hm1 : ∀ v, InMode d (params.set "maxAnomalyRatio" v) .ENTIRE := fun v => by
    unfold InMode at *
    rwa [hset _ _ (by decide)]
  have hs1 : ∀ v', params.set "maxAnomalyRatio" v' "sensitivity" = some v := fun v' => by rw [hset _ _ (by decide)]; exact hs
  obtain ⟨l1, f1⟩ := T.full_sensitivity hE (hs1 _) hv (hm1 _)
  obtain ⟨l2, f2⟩ := T'.full_sensitivity hE (hs1 _) hv (hm1 _)
  obtain ⟨s1, p1, q1, r1⟩ := T.sr (hq.set _)
  obtain ⟨s2, p2, q2, r2⟩ := T'.sr (hq.set _)
  obtain ⟨e1, e2, e3⟩ : T.hasTs = T'.hasTs ∧ T.hasValue = T'.hasValue ∧ T.rows = T'.rows := by
    simpa using T.isFrame.symm.trans T'.isFrame
  have hvals : T'.M.values = T.M.values := by
    have h1 := T.validated.values
    have h2 := T'.validated.values
    rw [e2, e3, h2] at h1
    have h3 := Except.ok.inj h1
    exact (List.map_injective_iff.2 fun a b h => PyFloat.fin.inj h) h3
  have hlast : ∀ {x : PyVal}, x = .dtype .ENTIRE → isLatest x = false := by rintro x rfl; rfl
  rw [hlast (T.mode_eq (hm1 _))] at r1
  rw [hlast (T'.mode_eq (hm1 _)), hvals] at r2
  rw [q1] at r1 p1
  rw [q2] at r2
  have hth : T'.M.threshold = T.M.threshold := by
    rw [T.configured.threshold, T'.configured.threshold]
    have a := T.parsed.threshold
    have b := T'.parsed.threshold
    rw [hset _ _ (by decide)] at a b
    rcases a with ⟨a1, a2⟩ | ⟨f, a1, a2⟩ <;> rcases b with ⟨b1, b2⟩ | ⟨g, b1, b2⟩ <;> rw [a1] at b1 <;> cases b1 <;> rw [a2, b2]
  have hgr : T'.M.gran = T.M.gran := by
    rw [T.configured.gran, T'.configured.gran]
    have a := T.parsed.gran
    have b := T'.parsed.gran
    rw [hset _ _ (by decide)] at a b
    rcases a with ⟨a1, a2⟩ | ⟨f, a1, a2⟩ <;> rcases b with ⟨b1, b2⟩ | ⟨g, b1, b2⟩ <;> rw [a1] at b1 <;> cases b1
    · rw [a2, b2]
    · rw [a2] at b2
      exact (Option.some.inj b2).symm
  have hiv : T'.M.interval = T.M.interval := by
    rw [T.configured.interval, T'.configured.interval]
    have a := T.parsed.interval
    have b := T'.parsed.interval
    rw [hset _ _ (by decide)] at a b
    rcases a with ⟨a1, a2⟩ | ⟨f, i, a1, a2, -, a3⟩ <;> rcases b with ⟨b1, b2⟩ | ⟨g, j, b1, b2, -, b3⟩ <;> rw [a1] at b1 <;> cases b1
    · rw [a2, b2]
    · rw [a2] at b2
      cases b2
      rw [a3, b3]
  have hnt : T'.M.needTrend = T.M.needTrend := by
    rw [T.configured.trend, T'.configured.trend]
    obtain ⟨b, -, a1, a2⟩ := T.parsed.boundary
    obtain ⟨c, -, b1, b2⟩ := T'.parsed.boundary
    rw [a1, b1]
    have hk : ∀ v, presentKey (params.set "maxAnomalyRatio" v) "boundaryVersion" = presentKey params "boundaryVersion" :=
      fun v => presentKey_congr (hset _ _ (by decide))
    rw [hk] at a2 b2
    rcases a2 with ⟨a2, a3⟩ | ⟨s, a2, a3⟩ <;> rcases b2 with ⟨b2, b3⟩ | ⟨t, b2, b3⟩ <;> rw [a2] at b2 <;> cases b2
    · rw [a3, b3]
    · rw [a3] at b3
      cases b3
      rfl
  have hra : ∀ {q : ℚ} {its : List Item} (U : Trace E d data (params.set "maxAnomalyRatio" (.float (.fin q))) its), U.ratio = q := by
    intro q its U
    have h1 := U.selected.finite
    rw [hlast (U.mode_eq (hm1 _))] at h1
    simp only [Model.maxRatio, Bool.false_and, Bool.false_eq_true, if_false] at h1
    rw [U.configured.ratio] at h1
    rcases U.parsed.ratio with ⟨h2, -⟩ | ⟨f, h2, -, -, h3⟩
    · rw [Params.set_self] at h2; cases h2
    · rw [Params.set_self] at h2
      cases h2
      rw [h3] at h1
      exact (PyFloat.fin.inj h1).symm
  rw [hra T] at r1
  rw [hra T'] at r2
  obtain ⟨k1, k2⟩ := run_ratio hE hth hnt hgr hiv hr p1 s1 r1 r2
  have hlen : ∀ {q : ℚ} {its : List Item}, (predict E W d data (params.set "maxAnomalyRatio" (.float (.fin q)))).outcome = .ok its →
      its.length = T.rows.length := by
    intro q its hq'
    have hd := T.isFrame
    rw [hd] at hq'
    exact (C12_entire_items hE (by rw [hset _ _ (by decide)]; exact hno) (hd ▸ hf.set _ (by decide)) (hm1 _) hq').1
  refine ⟨by rw [hlen h, hlen h'], fun k a b ha hb haa => ?_⟩
  obtain ⟨i, x, rfl, x1, x2⟩ := f1 k a ha
  obtain ⟨j, y, rfl, y1, y2⟩ := f2 _ b hb
  have := x2.1 haa
  cases k2 _ x y x1 y1 this.1
  exact y2.2 this

/-- **C130** (with the dynamic threshold model it fails): there is a series of daily values, sent with sensitivity 100, of which fewer points are reported
with `maxAnomalyRatio` 0.36 than with 0.29. Some point is an anomaly with the smaller share only. -/
theorem C130_dynamic : ∃ (E : Env) (rows : List (PyVal × PyVal)) (l l' : List Bool), E.WF ∧
    flaggedIn (predict E demoWild entireDetector (.frame true true rows)
      (optParams "daily" 1 [("sensitivity", .int 100), ("maxAnomalyRatio", .float (.fin (29 / 100)))])) = some l ∧
    flaggedIn (predict E demoWild entireDetector (.frame true true rows)
      (optParams "daily" 1 [("sensitivity", .int 100), ("maxAnomalyRatio", .float (.fin (36 / 100)))])) = some l' ∧
    l'.count true < l.count true ∧ ∃ k : Nat, l[k]? = some true ∧ l'[k]? = some false := by
  refine ⟨demoEnv, demoRows [4, 0, 0, 1, 2, 15, 0, 0, 2, 2, 2, 3, 0, 2] 86400,
    [true, true, true, false, false, true, true, true, false, false, true, true, true, true],
    [true, true, true, true, false, true, true, true, false, false, false, true, true, false], demoEnv_WF, ?_, ?_, ?_, 10, ?_, ?_⟩ <;> decide +kernel

/-- a scattered series with two spikes -/
def spiked : List Int := [0, 10, 0, 10, 0, 10, 0, 10, 0, 10, 90, 10, 0, 70]

theorem spiked_scattered : Scattered demoEnv.parseFloat demoEnv.gaussC (.frame true true (demoRows spiked 60)) := by
  refine ⟨spiked.map fun i : Int => (i : ℚ), npMedian (spiked.map fun i : Int => (i : ℚ)),
    npMedian ((spiked.map fun i : Int => (i : ℚ)).map fun x => |x - npMedian (spiked.map fun i : Int => (i : ℚ))|), by decide, ?_,
    isMedian_npMedian (by decide), isMedian_npMedian (by decide), by decide +kernel⟩
  intro i q h
  have hi : i < 14 := by
    by_contra hc
    rw [List.getElem?_eq_none (by simpa [spiked] using hc)] at h
    cases h
  rw [List.getElem?_map] at h
  interval_cases i <;> (cases h; exact ⟨_, rfl, .int (.int _)⟩)

/-- a request about it, for minutely values -/
def spikedParams : Params := optParams "minutely" 1 [("sensitivity", .int 100), ("threshold", .float (.fin 0))]

/-- `C130_raise` with shares 0.05 and 0.2: the anomaly at 10 stays, one is added at 1 -/
example : ∃ items items' : List Item,
    (predict demoEnv demoWild entireDetector (.frame true true (demoRows spiked 60))
      (spikedParams.set "maxAnomalyRatio" (.float (.fin (1 / 20))))).outcome = .ok items ∧
    (predict demoEnv demoWild entireDetector (.frame true true (demoRows spiked 60))
      (spikedParams.set "maxAnomalyRatio" (.float (.fin (1 / 5))))).outcome = .ok items' ∧
    items'.length = items.length ∧ (items.map (·.anom))[10]? = some true ∧ (items'.map (·.anom))[1]? = some true ∧ (items.map (·.anom))[1]? = some false ∧
    ∀ (k : Nat) (a b : Item), items[k]? = some a → items'[k]? = some b → a.anom = true → b.anom = true := by
  have ho : flaggedIn (predict demoEnv demoWild entireDetector (.frame true true (demoRows spiked 60))
      (spikedParams.set "maxAnomalyRatio" (.float (.fin (1 / 20))))) =
      some [false, false, false, false, false, false, false, false, false, false, true, false, false, false] := by decide +kernel
  have ho' : flaggedIn (predict demoEnv demoWild entireDetector (.frame true true (demoRows spiked 60))
      (spikedParams.set "maxAnomalyRatio" (.float (.fin (1 / 5))))) =
      some [false, true, false, false, false, false, false, false, false, false, true, false, false, false] := by decide +kernel
  have key : ∀ {r : CallResult} {l : List Bool}, flaggedIn r = some l → ∃ its, r.outcome = .ok its ∧ its.map (·.anom) = l := by
    intro r l h
    unfold flaggedIn at h
    split at h
    · rename_i its hi
      exact ⟨its, hi, Option.some.inj h⟩
    · cases h
  obtain ⟨its, h, e⟩ := key ho
  obtain ⟨its', h', e'⟩ := key ho'
  have := C130_raise demoEnv_WF (r := 1 / 20) (r' := 1 / 5) (by norm_num) (by rfl)
    (.inl ⟨(by intro h; cases h), fun f h => by cases h⟩) (.inl (by rfl)) (v := .int 100) (by rfl) (.int 100)
    (n := 1) ⟨⟨.int 1, by rfl, .int 1⟩, by decide, .inl ⟨by rfl, fun v i h => by cases h⟩, ⟨.inl (by rfl), .inl (by rfl)⟩, spiked_scattered⟩ h h'
  exact ⟨its, its', h, h', this.1, by rw [e]; rfl, by rw [e']; rfl, by rw [e]; rfl, this.2⟩

end Verif
