import Verif.Props.Alpha

/-!
# The share of anomalies: threshold and seasonal models (C130)

What happens when `maxAnomalyRatio` is raised and the dynamic threshold model or the seasonal model answers.
-/

namespace Verif

open Spec

theorem selects_share {P : Nat → Prop} {index : List Nat} {mx mx' : Nat} (h : mx ≤ mx') {r r' : List Nat} (hr : Selects P index mx none r)
    (hr' : Selects P index mx' none r') : ∀ x ∈ r, x ∈ r' := by
  intro x hx
  rcases hr with ⟨rfl, -⟩ | ⟨k, rfl, -, h2, h3, -, -⟩
  · cases hx
  rcases hr' with ⟨rfl, h4⟩ | ⟨j, rfl, -, -, -, h5, -⟩
  · exact absurd h3 (h4 k (Nat.zero_le _) (by omega))
  · have : k ≤ j := by
      by_contra hc
      exact h5 rfl k (by omega) (by omega) h3
    rw [List.mem_take_iff_getElem] at hx ⊢
    obtain ⟨i, hi, rfl⟩ := hx
    exact ⟨i, by omega, rfl⟩

theorem esd_share {E : Env} {data : List ℚ} {mx mx' : Nat} {a : PyFloat} {dir : Direction} {e e' : List Nat} (h0 : mx ≤ mx')
    (h : EsdProposes E data mx a dir false e) (h' : EsdProposes E data mx' a dir false e') {x : Nat} (hx : x ∈ e) : x ∈ e' := by
  rcases h with ⟨h, -, -⟩ | ⟨-, h⟩
  · cases h
  rcases h' with ⟨h', -, -⟩ | ⟨-, h'⟩
  · cases h'
  exact selects_share h0 h h' x hx

theorem z_share {E : Env} {sorted : List (Nat × ℚ)} {mx mx' : Nat} {dir : Direction} (h : mx ≤ mx') {x : Nat} (hx : x ∈ zscoreDetect E sorted mx dir) :
    x ∈ zscoreDetect E sorted mx' dir := by
  have key : ∀ c s : ℚ, (x ∈ if s = 0 then [] else (((tailView sorted dir).take mx).filter fun y => decide (3 < |y.2 - c| / s)).map (·.1)) →
      x ∈ if s = 0 then [] else (((tailView sorted dir).take mx').filter fun y => decide (3 < |y.2 - c| / s)).map (·.1) := by
    intro c s
    split
    · exact id
    · exact fun hx => (((List.take_sublist_take_left h).filter _).map _).subset hx
  exact key _ _ hx

theorem dt_share {E : Env} (hE : E.WF) {series trend : List ℚ} (hd : series ≠ []) {a : PyFloat} {q q' : ℚ} {nt nt' : Bool} {rows rows' : List Row}
    {md md' : ModelType} (hq : q ≤ q') (h : dtDetection E series trend a q nt false = .ok (rows, md))
    (h' : dtDetection E series trend a q' nt' false = .ok (rows', md')) {i : Nat} {r r' : Row}
    (hr : rows[i]? = some r) (hr' : rows'[i]? = some r') (hf : r.anom = true) : r'.anom = true := by
  obtain ⟨an, t, h1, -, rfl⟩ := dtDetection_ok h
  obtain ⟨an', t', h1', -, rfl⟩ := dtDetection_ok h'
  obtain ⟨e, h2, h3⟩ := dt_members hE (normalize_ne hd) h1
  obtain ⟨e', h2', h3'⟩ := dt_members hE (normalize_ne hd) h1'
  obtain ⟨dir, h4⟩ := (h3 i).1 ((assemble_anom hr).1 hf)
  exact (assemble_anom hr').2 ((h3' i).2 ⟨dir, h4.imp (esd_share (maxOutliersOf_mono hq) (h2 dir) (h2' dir)) (z_share (maxOutliersOf_mono hq))⟩)

/-- **C130** (seasonal model) The series is decomposed by a period. A row that is flagged with the smaller share and not with the larger one is lost to the limit:
with the larger share as many rows are flagged as this share allows in one direction, or more. -/
theorem C130_limit {E : Env} (hE : E.WF) {series : List ℚ} {period : Nat} {q q' : ℚ} {a : PyFloat} {nt nt' : Bool} {rows rows' : List Row} {md md' : ModelType}
    (hq : q ≤ q') (h : tsDetection E series period q a nt false = .ok (rows, md)) (h' : tsDetection E series period q' a nt' false = .ok (rows', md'))
    {i : Nat} {r r' : Row} (hr : rows[i]? = some r) (hr' : rows'[i]? = some r') (hf : r.anom = true) (hn : r'.anom = false) :
    maxOutliersOf series.length (max q' (ddiv 1 series.length)) ≤ (rows'.filter (·.anom)).length := by
  obtain ⟨d, an, ex, t, s, deS, rem, h0, h1, h2, l1, l2, n1, n2, h3, rfl⟩ := tsDetection_parts hE h
  obtain ⟨d', an', ex', t', s', deS', rem', h0', h1', h2', -, -, -, -, h3', rfl⟩ := tsDetection_parts hE h'
  rw [h0] at h0'
  cases h0'
  rw [← h1] at h1'
  subst h1'
  rw [← h2] at h2'
  subst h2'
  obtain ⟨e, x, h4, h5, h6⟩ := ts_members hE (normalize_ne n1) (by rw [normalize_length, normalize_length, l1, l2]) h3
  obtain ⟨e', x', h4', h5', h6'⟩ := ts_members hE (normalize_ne n1) (by rw [normalize_length, normalize_length, l1, l2]) h3'
  rw [normalize_length, l1] at h4 h5 h6 h4' h5' h6'
  have hle : maxOutliersOf series.length (max q (ddiv 1 series.length)) ≤ maxOutliersOf series.length (max q' (ddiv 1 series.length)) :=
    maxOutliersOf_mono (max_le_max_right _ hq)
  set mx := maxOutliersOf series.length (max q' (ddiv 1 series.length)) with hmx
  have no : i ∉ an' := fun hc => by
    rw [(assemble_anom hr').2 hc] at hn
    cases hn
  obtain ⟨dir, h7⟩ := (h6 i).1 ((assemble_anom hr).1 hf)
  have hx : i ∈ x' dir := by
    rcases h7 with h7 | h7 | ⟨h7, -⟩
    · exact absurd ((h6' i).2 ⟨dir, .inl (esd_share hle (h4 dir) (h4' dir) h7)⟩) no
    · exact absurd ((h6' i).2 ⟨dir, .inr (.inl (z_share hle h7))⟩) no
    · exact esd_share hle (h5 dir) (h5' dir) h7
  obtain ⟨p, hp, hp1, hp2⟩ : ∃ p, ∃ hp : p < (x' dir).length, (x' dir)[p] ∉ an' ∧ ∀ j (hj : j < p), (x' dir)[j] ∈ an' := by
    have hex : ∃ p, ∃ hp : p < (x' dir).length, (x' dir)[p] ∉ an' := by
      obtain ⟨p, hp, e⟩ := List.getElem_of_mem hx
      exact ⟨p, hp, by rw [e]; exact no⟩
    classical
    obtain ⟨hp, hp1⟩ := Nat.find_spec hex
    refine ⟨Nat.find hex, hp, hp1, fun j hj => ?_⟩
    by_contra hc
    exact Nat.find_min hex hj ⟨by omega, hc⟩
  have hroom : ¬ Room mx (e' dir) (zscoreDetect E (sortedSeries E (normalize deS')) mx dir) (x' dir) (x' dir)[p] := fun hc =>
    hp1 ((h6' _).2 ⟨dir, .inr (.inr ⟨List.getElem_mem hp, hc⟩)⟩)
  have hidx : (x' dir).idxOf (x' dir)[p] = p := (esd_nodup hE (h5' dir)).idxOf_getElem p hp
  unfold Room at hroom
  rw [hidx, not_lt] at hroom
  refine hroom.trans (card_flagged fun y hy => ?_)
  have low : ∀ {data : List ℚ}, data.length = series.length → y ∈ (order E data dir).take mx → y < series.length := fun hl hy => by
    rw [← hl]
    exact List.mem_range.1 ((order_ranking hE _ dir).perm.mem_iff.1 (List.mem_of_mem_take hy))
  simp only [List.toFinset_append, Finset.mem_union, List.mem_toFinset] at hy
  rcases hy with (hy | hy) | hy
  · exact ⟨(h6' y).2 ⟨dir, .inl hy⟩, low (by rw [normalize_length, l1]) (esd_top hE (h4' dir) y hy)⟩
  · exact ⟨(h6' y).2 ⟨dir, .inr (.inl hy)⟩, low (by rw [normalize_length, l1]) ((z_top (C78_zscore hE (normalize_ne n1) mx dir)).2 y hy)⟩
  · refine ⟨?_, low (by rw [normalize_length, l2]) (esd_top hE (h5' dir) y (List.mem_of_mem_take hy))⟩
    obtain ⟨j, hj, rfl⟩ := List.mem_take_iff_getElem.1 hy
    exact hp2 j (by omega)

theorem Trace.entire_ratio {E : Env} {d : Detector} {data : DataArg} {p : Params} {items : List Item} (T : Trace E d data p items) {ρ : ℚ}
    (hl : isLatest T.mode = false) (hρ : RatioOf p ρ) : T.ratio = ρ := by
  have h1 := T.selected.finite
  unfold Model.maxRatio at h1
  rw [hl] at h1
  simp only [Bool.false_and, Bool.false_eq_true, if_false] at h1
  rw [T.configured.ratio] at h1
  rcases T.parsed.ratio with ⟨a, b⟩ | ⟨f, a, -, -, b⟩ <;> rw [b] at h1 <;> rcases hρ with ⟨c, rfl⟩ | c <;> rw [a] at c <;> cases c
  · simp only [Option.getD_none, PyFloat.fin.injEq] at h1
    rw [← h1]; norm_num
  · exact (PyFloat.fin.inj h1).symm

theorem same_alpha {E : Env} {d : Detector} {data : DataArg} {p q : Params} (hpq : ∀ x, x ≠ "maxAnomalyRatio" → p x = q x) {items items' : List Item}
    (T : Trace E d data p items) (T' : Trace E d data q items') : T'.M.alpha = T.M.alpha := by
  rw [T.configured.alpha, T'.configured.alpha]
  rcases T.parsed.alpha with ⟨a1, a2⟩ | ⟨v, f, a1, a3, -, a2⟩ <;> rcases T'.parsed.alpha with ⟨b1, b2⟩ | ⟨u, g, b1, b3, -, b2⟩ <;>
    rw [← hpq _ (by decide), a1] at b1 <;> cases b1 <;> rw [a2, b2]
  rw [a3] at b3
  cases b3
  rfl

/-- **C130** (stationary series) Two requests about the same data frame differ in `maxAnomalyRatio` only. They are in ENTIRE mode with `sensitivity` 100, the dynamic
threshold model answers them, and the tests find the series stationary. If both are answered, every point that is reported with the smaller share is also reported
with the larger one, unless its value is within `1e-8` of the expected value that the second answer gives for it. -/
theorem C130_stationary {E : Env} (hE : E.WF) {W : Wild} {d : Detector} {hasTs hasValue : Bool} {rows : List (PyVal × PyVal)} {p q : Params}
    (hpq : ∀ x, x ≠ "maxAnomalyRatio" → p x = q x) {ρ ρ' : ℚ} (hp : RatioOf p ρ) (hq : RatioOf q ρ') (ha : ρ ≤ ρ')
    (hno : p "indices" = none) (hf : FiniteFill E (.frame hasTs hasValue rows) p) (hf' : FiniteFill E (.frame hasTs hasValue rows) q)
    (hm : InMode d p .ENTIRE) {v : PyVal} (hs : p "sensitivity" = some v) (hv : IsInt v 100) {n : Int} (hr : DtRequest p n)
    (hst : Stationary E (.frame hasTs hasValue rows)) {items items' : List Item} (h : (predict E W d (.frame hasTs hasValue rows) p).outcome = .ok items)
    (h' : (predict E W d (.frame hasTs hasValue rows) q).outcome = .ok items') {k : Nat} {x y : Item} {w : ℚ} (hx : items[k]? = some x)
    (hy : items'[k]? = some y) (hw : RowValue E.parseFloat rows k w) (hxa : x.anom = true) :
    y.anom = true ∨ |w - y.expected| < 1 / 10 ^ 8 := by
  have hr' : DtRequest q n := by
    obtain ⟨⟨u, u1, u2⟩, b2, b3, ⟨b4, b5⟩⟩ := hr
    refine ⟨⟨u, by rw [← hpq _ (by decide)]; exact u1, u2⟩, b2, fun e => b3 ?_, ⟨?_, ?_⟩⟩
    · unfold FineGrained at e ⊢
      rwa [hpq _ (by decide), hpq "customInterval" (by decide)]
    · rwa [← hpq _ (by decide)]
    · rwa [← hpq _ (by decide)]
  have hm' : InMode d q .ENTIRE := by
    unfold InMode at hm ⊢
    rwa [← hpq _ (by decide)]
  obtain ⟨T⟩ := predict_trace hE hno hf h
  obtain ⟨T'⟩ := predict_trace hE (by rw [← hpq _ (by decide)]; exact hno) hf' h'
  obtain ⟨s1, p1, q1, r1⟩ := T.dt hr
  obtain ⟨s2, p2, q2, r2⟩ := T'.dt hr'
  obtain ⟨-, -, eR⟩ : hasTs = T.hasTs ∧ hasValue = T.hasValue ∧ rows = T.rows := by simpa using T.isFrame
  obtain ⟨-, -, eR'⟩ : hasTs = T'.hasTs ∧ hasValue = T'.hasValue ∧ rows = T'.rows := by simpa using T'.isFrame
  have hv1 : ∀ i z, T.M.values[i]? = some z → RowValue E.parseFloat rows i z := fun i z e => by
    rw [eR]
    exact T.rowValue e
  have hl1 : T.M.values.length = rows.length := (T.len hE).2.1.trans (congrArg List.length eR).symm
  have hvv : T'.M.values = T.M.values := values_eq T'.validated.values (mapM_finite_fin _) (hl1.trans (congrArg List.length eR')) fun i z e => by
    rw [← eR']
    exact hv1 i z e
  have hst1 : E.stationary T.M.values = true := hst _ ⟨hl1, hv1⟩
  have hlat := congrArg isLatest (T.mode_eq hm)
  have hlat' := congrArg isLatest (T'.mode_eq hm')
  have hra := T.entire_ratio hlat hp
  have hra' := T'.entire_ratio hlat' hq
  have hal := same_alpha hpq T T'
  obtain ⟨tr, t1, t2⟩ := run_stationary p1 (s1 _) hst1 r1
  obtain ⟨tr', t1', t2'⟩ := run_stationary p2 (s2 _) (by rw [hvv]; exact hst1) r2
  rw [hvv, q2, ← q1, t1] at t1'
  cases t1'
  rw [hlat, hra] at t2
  rw [hvv, hra', hal, hlat'] at t2'
  obtain ⟨-, a4⟩ := T.full_sensitivity hE hs hv hm
  obtain ⟨-, b4⟩ := T'.full_sensitivity hE (by rw [← hpq _ (by decide)]; exact hs) hv hm'
  obtain ⟨-, b2, b3⟩ := T'.item_window hE hm'
  have hi : Concerns .ENTIRE rows.length k k := rfl
  obtain ⟨i1, ri, k1, k2, k3⟩ := a4 k _ hx
  obtain ⟨i2, rj, l1, l2, l3⟩ := b4 k _ hy
  obtain ⟨c2, ⟨r', o', ts', j1, j2, j3, j4⟩⟩ := b3 k _ hy
  rw [← eR] at k1
  rw [← eR'] at l1
  rw [concerns_unique k1 hi] at k2
  rw [concerns_unique l1 hi] at l2
  rw [concerns_unique c2 (by rw [← eR']; exact hi)] at j1
  rw [List.getElem?_map, l2] at j1
  cases j1
  have hexp : y.expected = rj.expected := by
    rw [j4]
    change o'.expected = _
    rw [j2.expected]
    unfold clearNear
    split <;> rfl
  have hne : T.M.values ≠ [] := by
    intro e
    have h5 := (T.frameOk hE).values
    rw [e, List.map_eq_nil_iff] at h5
    rw [h5] at k2
    cases k2
  have hflag := dt_share hE hne ha t2 t2' k2 l2 (k3.1 hxa).1
  have hval : rj.value = w := by
    have := T'.value hE (i := k) (r := clearNear rj) (by rw [List.getElem?_map, l2]; rfl) (by rw [← eR']; exact hw)
    rw [← this]
    unfold clearNear
    split <;> rfl
  by_cases hnear : 1 / 10 ^ 8 ≤ |rj.value - rj.expected|
  · exact .inl (l3.2 ⟨hflag, hnear⟩)
  · rw [hexp, ← hval]
    exact .inr (not_le.1 hnear)

theorem selects_last_share {P : Nat → Prop} {index : List Nat} {mx mx' j x : Nat} (h : mx ≤ mx') {r r' : List Nat} (hr : Selects P index mx (some j) r)
    (hr' : Selects P index mx' (some j) r') (hj : index[j]? = some x) (hx : x ∈ r) : x ∈ r' := by
  rcases hr with ⟨rfl, -⟩ | ⟨k, rfl, h1, h2, h3, -, -⟩
  · cases hx
  rcases hr' with ⟨rfl, h4⟩ | ⟨i, rfl, h5, -, -, -, -⟩
  · exact absurd h3 (h4 k h1 (by omega))
  · rw [List.mem_take_iff_getElem]
    obtain ⟨e, rfl⟩ := List.getElem?_eq_some_iff.1 hj
    exact ⟨j, by rw [Option.getD_some] at h5; omega, rfl⟩

theorem esd_last_share {E : Env} {data : List ℚ} {mx mx' : Nat} {a : PyFloat} {dir : Direction} {e e' : List Nat} (h0 : mx ≤ mx')
    (h : EsdProposes E data mx a dir true e) (h' : EsdProposes E data mx' a dir true e') {x : Nat} (hl : x + 1 = data.length) (hx : x ∈ e) : x ∈ e' := by
  rcases h with ⟨-, -, rfl⟩ | ⟨m, h⟩
  · cases hx
  rcases h' with ⟨m', h', -⟩ | ⟨-, h'⟩
  · exact absurd (m m') h'
  have e : x = data.length - 1 := by omega
  refine selects_last_share h0 h h' ?_ hx
  rw [e]
  exact List.getElem?_eq_some_iff.2 ⟨List.idxOf_lt_length_of_mem (m rfl), List.getElem_idxOf _⟩

theorem dt_last_share {E : Env} (hE : E.WF) {series trend : List ℚ} (hd : series ≠ []) {a : PyFloat} {q q' : ℚ} {nt nt' : Bool} {rows rows' : List Row}
    {md md' : ModelType} (hq : q ≤ q') (h : dtDetection E series trend a q nt true = .ok (rows, md))
    (h' : dtDetection E series trend a q' nt' true = .ok (rows', md')) {i : Nat} (hl : i + 1 = series.length) {r r' : Row}
    (hr : rows[i]? = some r) (hr' : rows'[i]? = some r') (hf : r.anom = true) : r'.anom = true := by
  obtain ⟨an, t, h1, -, rfl⟩ := dtDetection_ok h
  obtain ⟨an', t', h1', -, rfl⟩ := dtDetection_ok h'
  obtain ⟨e, h2, h3⟩ := dt_members hE (normalize_ne hd) h1
  obtain ⟨e', h2', h3'⟩ := dt_members hE (normalize_ne hd) h1'
  obtain ⟨dir, h4⟩ := (h3 i).1 ((assemble_anom hr).1 hf)
  exact (assemble_anom hr').2 ((h3' i).2 ⟨dir, h4.imp (esd_last_share (maxOutliersOf_mono hq) (h2 dir) (h2' dir) (by rw [normalize_length, hl]))
    (z_share (maxOutliersOf_mono hq))⟩)

theorem Trace.named_ratio {E : Env} {d : Detector} {data : DataArg} {p : Params} {items : List Item} (T : Trace E d data p items) {ρ : ℚ}
    (hρ : RatioOf p ρ) : T.M.ratio = .fin ρ := by
  rw [T.configured.ratio]
  rcases T.parsed.ratio with ⟨a, b⟩ | ⟨f, a, -, -, b⟩ <;> rw [b] <;> rcases hρ with ⟨c, rfl⟩ | c <;> rw [a] at c <;> cases c
  · simp only [Option.getD_none, PyFloat.fin.injEq]
    norm_num
  · rfl

/-- in latest mode the share that the models get grows with the share of the request -/
theorem latest_ratio {E : Env} {d : Detector} {data : DataArg} {p q : Params} {items items' : List Item} (T : Trace E d data p items) (T' : Trace E d data q items')
    (hh : ∀ l s, E.histMajority l = some s → s ≤ 1) (hv : T'.M.values = T.M.values) (hl : isLatest T'.mode = isLatest T.mode) {ρ ρ' : ℚ} (hp : RatioOf p ρ)
    (hq : RatioOf q ρ') (hle : ρ ≤ ρ') : T.ratio ≤ T'.ratio := by
  have h1 := T.selected.finite
  have h2 := T'.selected.finite
  have e2 : T'.M.majority = T.M.majority := by rw [T.configured.majority, T'.configured.majority, hv]
  have hm : T.M.majority ≤ 1 := by
    rw [T.configured.majority]
    cases e : E.histMajority T.M.values with
    | none => simp only [Option.getD_none]; norm_num
    | some s => exact hh _ _ e
  unfold Model.maxRatio at h1 h2
  rw [T.named_ratio hp] at h1
  rw [T'.named_ratio hq, e2, hl] at h2
  split at h1
  · next hc =>
    rw [if_pos hc] at h2
    rw [← PyFloat.fin.inj h1, ← PyFloat.fin.inj h2]
    exact max_le_max (mul_le_mul_of_nonneg_left hle (by linarith)) (min_le_min_left _ hle)
  · next hc =>
    rw [if_neg hc] at h2
    rw [← PyFloat.fin.inj h1, ← PyFloat.fin.inj h2]
    exact hle

/-- **C130** (stationary series, LATEST mode) As `C130_stationary`, in LATEST mode: if the latest point is reported with the smaller share, it is also reported with
the larger one, unless its value is within `1e-8` of the expected value that the second answer gives for it. The share of the fullest bin of a histogram must not
exceed 1 (for `Lib.env` see `C88_histogram`). -/
theorem C130_latest {E : Env} (hE : E.WF) {W : Wild} {d : Detector} {hasTs hasValue : Bool} {rows : List (PyVal × PyVal)} {p q : Params}
    (hpq : ∀ x, x ≠ "maxAnomalyRatio" → p x = q x) {ρ ρ' : ℚ} (hp : RatioOf p ρ) (hq : RatioOf q ρ') (ha : ρ ≤ ρ')
    (hno : p "indices" = none) (hf : FiniteFill E (.frame hasTs hasValue rows) p) (hf' : FiniteFill E (.frame hasTs hasValue rows) q)
    (hh : ∀ l s, E.histMajority l = some s → s ≤ 1) (hm : InMode d p .LATEST) {v : PyVal} (hs : p "sensitivity" = some v) (hv : IsInt v 100) {n : Int} (hr : DtRequest p n)
    (hst : Stationary E (.frame hasTs hasValue rows)) {items items' : List Item} (h : (predict E W d (.frame hasTs hasValue rows) p).outcome = .ok items)
    (h' : (predict E W d (.frame hasTs hasValue rows) q).outcome = .ok items') {k : Nat} {x y : Item} {i : Nat} {w : ℚ} (hx : items[k]? = some x)
    (hy : items'[k]? = some y) (hi : Concerns .LATEST rows.length k i) (hw : RowValue E.parseFloat rows i w) (hxa : x.anom = true) :
    y.anom = true ∨ |w - y.expected| < 1 / 10 ^ 8 := by
  have hr' : DtRequest q n := by
    obtain ⟨⟨u, u1, u2⟩, b2, b3, ⟨b4, b5⟩⟩ := hr
    refine ⟨⟨u, by rw [← hpq _ (by decide)]; exact u1, u2⟩, b2, fun e => b3 ?_, ⟨?_, ?_⟩⟩
    · unfold FineGrained at e ⊢
      rwa [hpq _ (by decide), hpq "customInterval" (by decide)]
    · rwa [← hpq _ (by decide)]
    · rwa [← hpq _ (by decide)]
  have hm' : InMode d q .LATEST := by
    unfold InMode at hm ⊢
    rwa [← hpq _ (by decide)]
  obtain ⟨T⟩ := predict_trace hE hno hf h
  obtain ⟨T'⟩ := predict_trace hE (by rw [← hpq _ (by decide)]; exact hno) hf' h'
  obtain ⟨s1, p1, q1, r1⟩ := T.dt hr
  obtain ⟨s2, p2, q2, r2⟩ := T'.dt hr'
  obtain ⟨-, -, eR⟩ : hasTs = T.hasTs ∧ hasValue = T.hasValue ∧ rows = T.rows := by simpa using T.isFrame
  obtain ⟨-, -, eR'⟩ : hasTs = T'.hasTs ∧ hasValue = T'.hasValue ∧ rows = T'.rows := by simpa using T'.isFrame
  have hv1 : ∀ i z, T.M.values[i]? = some z → RowValue E.parseFloat rows i z := fun i z e => by
    rw [eR]
    exact T.rowValue e
  have hl1 : T.M.values.length = rows.length := (T.len hE).2.1.trans (congrArg List.length eR).symm
  have hvv : T'.M.values = T.M.values := values_eq T'.validated.values (mapM_finite_fin _) (hl1.trans (congrArg List.length eR')) fun i z e => by
    rw [← eR']
    exact hv1 i z e
  have hst1 : E.stationary T.M.values = true := hst _ ⟨hl1, hv1⟩
  have hlat := congrArg isLatest (T.mode_eq hm)
  have hlat' := congrArg isLatest (T'.mode_eq hm')
  have hra := latest_ratio T T' hh hvv (hlat'.trans hlat.symm) hp hq ha
  have hal := same_alpha hpq T T'
  obtain ⟨tr, t1, t2⟩ := run_stationary p1 (s1 _) hst1 r1
  obtain ⟨tr', t1', t2'⟩ := run_stationary p2 (s2 _) (by rw [hvv]; exact hst1) r2
  rw [hvv, q2, ← q1, t1] at t1'
  cases t1'
  rw [hlat] at t2
  rw [hvv, hal, hlat'] at t2'
  obtain ⟨-, a4⟩ := T.full_sensitivity hE hs hv hm
  obtain ⟨-, b4⟩ := T'.full_sensitivity hE (by rw [← hpq _ (by decide)]; exact hs) hv hm'
  obtain ⟨-, b2, b3⟩ := T'.item_window hE hm'
  obtain ⟨i1, ri, k1, k2, k3⟩ := a4 k _ hx
  obtain ⟨i2, rj, l1, l2, l3⟩ := b4 k _ hy
  obtain ⟨c2, ⟨r', o', ts', j1, j2, j3, j4⟩⟩ := b3 k _ hy
  rw [← eR] at k1
  rw [← eR'] at l1
  rw [concerns_unique k1 hi] at k2
  rw [concerns_unique l1 hi] at l2
  rw [concerns_unique c2 (by rw [← eR']; exact hi)] at j1
  rw [List.getElem?_map, l2] at j1
  cases j1
  have hexp : y.expected = rj.expected := by
    rw [j4]
    change o'.expected = _
    rw [j2.expected]
    unfold clearNear
    split <;> rfl
  have hne : T.M.values ≠ [] := by
    intro e
    have h5 := (T.frameOk hE).values
    rw [e, List.map_eq_nil_iff] at h5
    rw [h5] at k2
    cases k2
  have hflag := dt_last_share hE hne hra t2 t2' (by rw [hl1]; exact hi.2) k2 l2 (k3.1 hxa).1
  have hval : rj.value = w := by
    have := T'.value hE (i := i) (r := clearNear rj) (by rw [List.getElem?_map, l2]; rfl) (by rw [← eR']; exact hw)
    rw [← this]
    unfold clearNear
    split <;> rfl
  by_cases hnear : 1 / 10 ^ 8 ≤ |rj.value - rj.expected|
  · exact .inl (l3.2 ⟨hflag, hnear⟩)
  · rw [hexp, ← hval]
    exact .inr (not_le.1 hnear)

/-- **C130** (seasonal model, requests) Two requests about the same data frame differ in `maxAnomalyRatio` only. They name a period above 1, no point is missing, and
they are in ENTIRE mode with `sensitivity` 100. If both are answered, a point that is reported with the smaller share is reported with the larger one too, unless its
value is within `1e-8` of the expected value that the second answer gives for it, or the larger share is used up: the points that the second answer reports, together
with those within `1e-8` of their expected values, are as many as it allows in one direction, or more. -/
theorem C130_share {E : Env} (hE : E.WF) {W : Wild} {d : Detector} {hasTs hasValue : Bool} {rows : List (PyVal × PyVal)} {p q : Params}
    (hpq : ∀ x, x ≠ "maxAnomalyRatio" → p x = q x) {ρ ρ' : ℚ} (hp : RatioOf p ρ) (hq : RatioOf q ρ') (ha : ρ ≤ ρ')
    (hno : p "indices" = none) (hg : ∀ idx, Positions E p hasTs rows idx → Gapless idx) (hm : InMode d p .ENTIRE) {v : PyVal} (hs : p "sensitivity" = some v)
    (hv : IsInt v 100) {n : Int} (hn : 1 < n) (hr : NamesPeriod p n) {items items' : List Item}
    (h : (predict E W d (.frame hasTs hasValue rows) p).outcome = .ok items) (h' : (predict E W d (.frame hasTs hasValue rows) q).outcome = .ok items')
    {k : Nat} {x y : Item} {w : ℚ} (hx : items[k]? = some x) (hy : items'[k]? = some y) (hw : RowValue E.parseFloat rows k w) (hxa : x.anom = true) :
    y.anom = true ∨ |w - y.expected| < 1 / 10 ^ 8 ∨
      ∃ (l : ℚ) (S : Finset Nat), Nearest ((rows.length : ℚ) * ρ') l ∧ min (max ⌈l⌉.toNat 1) (rows.length / 2 - 1) ≤ S.card ∧
        ∀ j ∈ S, ∃ z u, items'[j]? = some z ∧ RowValue E.parseFloat rows j u ∧ (z.anom = true ∨ |u - z.expected| < 1 / 10 ^ 8) := by
  have hm' : InMode d q .ENTIRE := by
    unfold InMode at hm ⊢
    rwa [← hpq _ (by decide)]
  have hg' : ∀ idx, Positions E q hasTs rows idx → Gapless idx := fun idx hi => hg idx (by
    unfold Positions requested at hi ⊢
    rwa [hpq "granularity" (by decide), hpq "customInterval" (by decide)])
  have hr' : NamesPeriod q n := by
    obtain ⟨u, u1, u2⟩ := hr
    exact ⟨u, by rw [← hpq _ (by decide)]; exact u1, u2⟩
  obtain ⟨T⟩ := predict_trace hE hno (.inr fun _ _ _ idx e hi => by cases e; exact hg idx hi) h
  obtain ⟨T'⟩ := predict_trace hE (by rw [← hpq _ (by decide)]; exact hno) (.inr fun _ _ _ idx e hi => by cases e; exact hg' idx hi) h'
  have t2 := T.seasonal hE hr hn hg
  have t2' := T'.seasonal hE hr' hn hg'
  obtain ⟨-, -, eR⟩ : hasTs = T.hasTs ∧ hasValue = T.hasValue ∧ rows = T.rows := by simpa using T.isFrame
  obtain ⟨-, -, eR'⟩ : hasTs = T'.hasTs ∧ hasValue = T'.hasValue ∧ rows = T'.rows := by simpa using T'.isFrame
  have hv1 : ∀ i z, T.M.values[i]? = some z → RowValue E.parseFloat rows i z := fun i z e => by
    rw [eR]
    exact T.rowValue e
  have hl1 : T.M.values.length = rows.length := (T.len hE).2.1.trans (congrArg List.length eR).symm
  have hvv : T'.M.values = T.M.values := values_eq T'.validated.values (mapM_finite_fin _) (hl1.trans (congrArg List.length eR')) fun i z e => by
    rw [← eR']
    exact hv1 i z e
  have hlat := congrArg isLatest (T.mode_eq hm)
  have hlat' := congrArg isLatest (T'.mode_eq hm')
  have hra := T.entire_ratio hlat hp
  have hra' := T'.entire_ratio hlat' hq
  have hal := same_alpha hpq T T'
  rw [hlat, hra] at t2
  rw [hvv, hra', hal, hlat'] at t2'
  obtain ⟨-, a4⟩ := T.full_sensitivity hE hs hv hm
  obtain ⟨f2, b4⟩ := T'.full_sensitivity hE (by rw [← hpq _ (by decide)]; exact hs) hv hm'
  obtain ⟨-, b2, b3⟩ := T'.item_window hE hm'
  have second : ∀ (j : Nat) (z : Item), items'[j]? = some z → ∃ r, T'.frame0[j]? = some r ∧ z.expected = r.expected ∧ RowValue E.parseFloat rows j r.value ∧
      (z.anom = true ↔ r.anom = true ∧ 1 / 10 ^ 8 ≤ |r.value - r.expected|) := by
    intro j z hz
    obtain ⟨i2, rj, l1, l2, l3⟩ := b4 j _ hz
    obtain ⟨c2, ⟨r', o', ts', j1, j2, j3, j4⟩⟩ := b3 j _ hz
    have l1 : i2 = j := l1
    have c2 : j + (T'.rows.length - items'.length) = j := c2
    rw [l1] at l2
    rw [c2, List.getElem?_map, l2] at j1
    cases j1
    refine ⟨rj, l2, ?_, ?_, l3⟩
    · rw [j4]
      change o'.expected = _
      rw [j2.expected]
      unfold clearNear
      split <;> rfl
    · refine hv1 j _ ?_
      rw [← hvv, ← (T'.frameOk hE).values, List.getElem?_map, l2]
      rfl
  obtain ⟨i1, ri, k1, k2, k3⟩ := a4 k _ hx
  have k1 : i1 = k := k1
  rw [k1] at k2
  obtain ⟨rj, l2, l3, l4, l5⟩ := second k y hy
  have hwv : w = rj.value := by
    obtain ⟨c, c1, c2⟩ := hw
    obtain ⟨c', d1, d2⟩ := l4
    rw [c1] at d1
    cases d1
    exact reads_unique c2 d2
  by_cases hnear : 1 / 10 ^ 8 ≤ |rj.value - rj.expected|
  swap
  · rw [l3, hwv]
    exact .inr (.inl (not_le.1 hnear))
  cases hf : rj.anom with
  | true => exact .inl (l5.2 ⟨hf, hnear⟩)
  | false =>
    refine .inr (.inr ?_)
    have hlim := C130_limit hE ha t2 t2' k2 l2 (k3.1 hxa).1 hf
    obtain ⟨l, hl, hb⟩ := C79_budget rows.length ρ'
    have hmono : maxOutliersOf rows.length ρ' ≤ (T'.frame0.filter (·.anom)).length := by
      rw [hl1] at hlim
      exact (maxOutliersOf_mono (le_max_left _ _)).trans hlim
    refine ⟨l, (Finset.range T'.frame0.length).filter fun j => (T'.frame0[j]?.any (·.anom)) = true, hl, ?_, fun j hj => ?_⟩
    · rw [← hb]
      exact hmono.trans (filter_card _ _)
    · rw [Finset.mem_filter, Finset.mem_range] at hj
      obtain ⟨hj1, hj2⟩ := hj
      have hlen : j < items'.length := by
        have : items'.length = T'.rows.length := b2
        omega
      obtain ⟨r, m1, m2, m3, m4⟩ := second j _ (List.getElem?_eq_getElem hlen)
      rw [m1] at hj2
      refine ⟨_, _, List.getElem?_eq_getElem hlen, m3, ?_⟩
      rw [m2]
      by_cases hc : 1 / 10 ^ 8 ≤ |r.value - r.expected|
      · exact .inl (m4.2 ⟨hj2, hc⟩)
      · exact .inr (not_le.1 hc)

/-! ### cases that meet the hypotheses, and what the seasonal model can lose -/

def shareValues : List ℚ := [8, 12, 16, 20, 43, 90, 90, 90, 90, 48, 90, 59, 73, 72]

/-- a request for the seasonal model -/
def shareParams (r : ℚ) : Params :=
  Params.ofList [("period", .int 3), ("sensitivity", .int 100), ("alpha", .float (.fin (9 / 10))), ("maxAnomalyRatio", .float (.fin r))]

/-- **C130** (with the seasonal model it fails) Intended: the larger share keeps every anomaly that is reported with the smaller one. Actual: row 5 is reported with
`maxAnomalyRatio` 0.05 and not with 0.1, though the value 90 there is more than 1 away from the expected value. -/
theorem C130_seasonal : ∃ (E : Env) (W : Wild) (rows : List (PyVal × PyVal)) (p q : Params) (items items' : List Item), E.WF ∧
    (∀ x, x ≠ "maxAnomalyRatio" → p x = q x) ∧ RatioOf p (1 / 20) ∧ RatioOf q (1 / 10) ∧
    InMode entireDetector p .ENTIRE ∧ (∃ v, p "sensitivity" = some v ∧ IsInt v 100) ∧ p "period" = some (.int 3) ∧
    (predict E W entireDetector (.frame true true rows) p).outcome = .ok items ∧ (predict E W entireDetector (.frame true true rows) q).outcome = .ok items' ∧
    RowValue E.parseFloat rows 5 90 ∧ ∃ x y, items[5]? = some x ∧ items'[5]? = some y ∧ x.anom = true ∧ y.anom = false ∧ 1 < |90 - y.expected| := by
  have h1 : (match (predict seasonEnv demoWild entireDetector (.frame true true (metreRows shareValues 86400)) (shareParams (1 / 20))).outcome with
      | .ok l => l[5]?.any fun x => x.anom
      | .error _ => false) = true := by decide +kernel
  have h2 : (match (predict seasonEnv demoWild entireDetector (.frame true true (metreRows shareValues 86400)) (shareParams (1 / 10))).outcome with
      | .ok l => l[5]?.any fun x => !x.anom && decide (1 < |90 - x.expected|)
      | .error _ => false) = true := by decide +kernel
  split at h1
  · rename_i items e1
    split at h2
    · rename_i items' e2
      obtain ⟨x, x1, x2⟩ : ∃ x, items[5]? = some x ∧ x.anom = true := by
        cases e : items[5]? with
        | none => rw [e] at h1; cases h1
        | some x => rw [e] at h1; exact ⟨x, rfl, h1⟩
      obtain ⟨y, y1, y2⟩ : ∃ y : Item, items'[5]? = some y ∧ (!y.anom && decide (1 < |90 - y.expected|)) = true := by
        cases e : items'[5]? with
        | none => rw [e] at h2; cases h2
        | some y => rw [e] at h2; exact ⟨y, rfl, h2⟩
      rw [Bool.and_eq_true, Bool.not_eq_true', decide_eq_true_iff] at y2
      exact ⟨_, demoWild, metreRows shareValues 86400, _, _, items, items', seasonEnv_WF,
        fun x hx => by simp [shareParams, Params.ofList, Params.set, hx], .inr (by rfl), .inr (by rfl), .inl (by rfl),
        ⟨.int 100, by rfl, .int 100⟩, by rfl, e1, e2, unitRows_value (by rfl) _, x, y, x1, y1, x2, y2.1, y2.2⟩
    · cases h2
  · cases h1

/-- `C130_limit` for the same series: with the share 0.1 at least two rows are flagged -/
example : ∃ (rows rows' : List Row) (md md' : ModelType), tsDetection seasonEnv shareValues 3 (1 / 20) (.fin (9 / 10)) false false = .ok (rows, md) ∧
    tsDetection seasonEnv shareValues 3 (1 / 10) (.fin (9 / 10)) false false = .ok (rows', md') ∧ 2 ≤ (rows'.filter (·.anom)).length := by
  have h : (match tsDetection seasonEnv shareValues 3 (1 / 20) (.fin (9 / 10)) false false with
      | .ok r => (r.1.map (·.anom))[5]?
      | .error _ => none) = some true := by decide +kernel
  have h' : (match tsDetection seasonEnv shareValues 3 (1 / 10) (.fin (9 / 10)) false false with
      | .ok r => (r.1.map (·.anom))[5]?
      | .error _ => none) = some false := by decide +kernel
  split at h
  · rename_i r e1
    split at h'
    · rename_i r' e2
      rw [List.getElem?_map, Option.map_eq_some_iff] at h h'
      obtain ⟨a, h1, h2⟩ := h
      obtain ⟨b, h3, h4⟩ := h'
      exact ⟨r.1, r'.1, r.2, r'.2, e1, e2, le_trans (by decide +kernel) (C130_limit seasonEnv_WF (by norm_num) e1 e2 h1 h3 h2 h4)⟩
    · cases h'
  · cases h

/-- `C130_share` for the same series: with the share 0.1 row 5 is lost, and the limit of two points is used up -/
example : ∃ (items' : List Item) (l : ℚ) (S : Finset Nat),
    (predict seasonEnv demoWild entireDetector (.frame true true (metreRows shareValues 86400)) (shareParams (1 / 10))).outcome = .ok items' ∧
    Nearest ((14 : ℚ) * (1 / 10)) l ∧ min (max ⌈l⌉.toNat 1) 6 ≤ S.card ∧
    ∀ j ∈ S, ∃ z u, items'[j]? = some z ∧ RowValue seasonEnv.parseFloat (metreRows shareValues 86400) j u ∧ (z.anom = true ∨ |u - z.expected| < 1 / 10 ^ 8) := by
  have h1 : (match (predict seasonEnv demoWild entireDetector (.frame true true (metreRows shareValues 86400)) (shareParams (1 / 20))).outcome with
      | .ok l => l[5]?.any fun x => x.anom
      | .error _ => false) = true := by decide +kernel
  have h2 : (match (predict seasonEnv demoWild entireDetector (.frame true true (metreRows shareValues 86400)) (shareParams (1 / 10))).outcome with
      | .ok l => l[5]?.any fun x => !x.anom && decide (1 < |90 - x.expected|)
      | .error _ => false) = true := by decide +kernel
  split at h1
  · rename_i items e1
    split at h2
    · rename_i items' e2
      obtain ⟨x, x1, x2⟩ : ∃ x, items[5]? = some x ∧ x.anom = true := by
        cases e : items[5]? with
        | none => rw [e] at h1; cases h1
        | some x => rw [e] at h1; exact ⟨x, rfl, h1⟩
      obtain ⟨y, y1, y2⟩ : ∃ y : Item, items'[5]? = some y ∧ (!y.anom && decide (1 < |90 - y.expected|)) = true := by
        cases e : items'[5]? with
        | none => rw [e] at h2; cases h2
        | some y => rw [e] at h2; exact ⟨y, rfl, h2⟩
      rw [Bool.and_eq_true, Bool.not_eq_true', decide_eq_true_iff] at y2
      rcases C130_share seasonEnv_WF (p := shareParams (1 / 20)) (q := shareParams (1 / 10)) (ρ := 1 / 20) (ρ' := 1 / 10) (fun x hx => by simp [shareParams, Params.ofList, Params.set, hx])
        (.inr (by rfl)) (.inr (by rfl)) (by norm_num) (by rfl) (by
          rintro idx (⟨-, rfl⟩ | ⟨g, ci, ts, hg, -⟩)
          · unfold Gapless
            decide
          · simp [requested, shareParams, Params.ofList, Params.set] at hg) (.inl (by rfl)) (v := .int 100) (by rfl) (.int 100) (n := 3) (by decide)
        ⟨.int 3, by rfl, .int 3⟩ e1 e2 x1 y1 (w := 90) (unitRows_value (by rfl) _) x2 with h | h | ⟨l, S, h3, h4, h5⟩
      · rw [y2.1] at h; cases h
      · have := y2.2
        norm_num at h
        linarith
      · exact ⟨items', l, S, e2, by exact_mod_cast h3, h4, h5⟩
    · cases h2
  · cases h1

/-- a request for the dynamic threshold model -/
def dailyShare (r : ℚ) : Params :=
  optParams "daily" 0 [("sensitivity", .int 100), ("alpha", .float (.fin (9 / 10))), ("maxAnomalyRatio", .float (.fin r))]

/-- `C130_stationary` for a series of daily values: rows 3 and 4 with the share 0.1, rows 0, 3, 4 and 8 with 0.25 -/
example : ∃ items items' : List Item,
    (predict (alphaEnv fun _ => true) demoWild entireDetector (.frame true true alphaRows) (dailyShare (1 / 10))).outcome = .ok items ∧
    (predict (alphaEnv fun _ => true) demoWild entireDetector (.frame true true alphaRows) (dailyShare (1 / 4))).outcome = .ok items' ∧
    items.map (·.anom) = [false, false, false, true, true] ++ List.replicate 9 false ∧
    items'.map (·.anom) = [true, false, false, true, true, false, false, false, true] ++ List.replicate 5 false ∧
    ∀ k x y w, items[k]? = some x → items'[k]? = some y → RowValue demoEnv.parseFloat alphaRows k w → x.anom = true → y.anom = true ∨ |w - y.expected| < 1 / 10 ^ 8 := by
  obtain ⟨items, h1, h2⟩ := answered_of_flags (r := predict (alphaEnv fun _ => true) demoWild entireDetector (.frame true true alphaRows) (dailyShare (1 / 10)))
    (l := [false, false, false, true, true] ++ List.replicate 9 false) (by decide +kernel)
  obtain ⟨items', h3, h4⟩ := answered_of_flags (r := predict (alphaEnv fun _ => true) demoWild entireDetector (.frame true true alphaRows) (dailyShare (1 / 4)))
    (l := [true, false, false, true, true, false, false, false, true] ++ List.replicate 5 false) (by decide +kernel)
  exact ⟨items, items', h1, h3, h2, h4, fun k x y w a b c e => C130_stationary (ρ := 1 / 10) (ρ' := 1 / 4) (alphaEnv_WF _)
    (fun x hx => by simp [dailyShare, optParams, Params.ofList, Params.set, hx]) (.inr (by rfl)) (.inr (by rfl)) (by norm_num)
    (by rfl) (.inl ⟨(by intro h; cases h), fun f h => by cases h⟩) (.inl ⟨(by intro h; cases h), fun f h => by cases h⟩) (.inl (by rfl)) (v := .int 100) (by rfl) (.int 100)
    (n := 0) ⟨⟨.int 0, by rfl, .int 0⟩, by decide, fun h => by
      rcases h with ⟨h, -⟩ | ⟨h, -⟩ <;> exact absurd (PyVal.str.inj (Option.some.inj h)) (by decide), ⟨.inl (by rfl), .inl (by rfl)⟩⟩ (fun _ _ => rfl) h1 h3 a b c e⟩

/-- `C130_latest`: the last value is reported with both shares -/
example : ∃ items items' : List Item,
    (predict (alphaEnv fun _ => true) demoWild latestDetector (.frame true true alphaLast) (dailyShare (1 / 10))).outcome = .ok items ∧
    (predict (alphaEnv fun _ => true) demoWild latestDetector (.frame true true alphaLast) (dailyShare (1 / 4))).outcome = .ok items' ∧
    items.map (·.anom) = [true] ∧ ∀ y, items'[0]? = some y → y.anom = true ∨ |40 - y.expected| < 1 / 10 ^ 8 := by
  obtain ⟨items, h1, h2⟩ := answered_of_flags (r := predict (alphaEnv fun _ => true) demoWild latestDetector (.frame true true alphaLast) (dailyShare (1 / 10)))
    (l := [true]) (by decide +kernel)
  obtain ⟨items', h3, h4⟩ := answered_of_flags (r := predict (alphaEnv fun _ => true) demoWild latestDetector (.frame true true alphaLast) (dailyShare (1 / 4)))
    (l := [true]) (by decide +kernel)
  refine ⟨items, items', h1, h3, h2, fun y hy => ?_⟩
  obtain ⟨x, hx, hxa⟩ : ∃ x, items[0]? = some x ∧ x.anom = true := by
    cases items with
    | nil => cases h2
    | cons x l => exact ⟨x, rfl, (List.cons.inj h2).1⟩
  exact C130_latest (ρ := 1 / 10) (ρ' := 1 / 4) (i := 13) (alphaEnv_WF _)
    (fun x hx => by simp [dailyShare, optParams, Params.ofList, Params.set, hx]) (.inr (by rfl)) (.inr (by rfl)) (by norm_num)
    (by rfl) (.inl ⟨(by intro h; cases h), fun f h => by cases h⟩) (.inl ⟨(by intro h; cases h), fun f h => by cases h⟩) (fun _ _ h => by cases h; norm_num) (.inl (by rfl)) (v := .int 100) (by rfl) (.int 100)
    (n := 0) ⟨⟨.int 0, by rfl, .int 0⟩, by decide, fun h => by
      rcases h with ⟨h, -⟩ | ⟨h, -⟩ <;> exact absurd (PyVal.str.inj (Option.some.inj h)) (by decide), ⟨.inl (by rfl), .inl (by rfl)⟩⟩ (fun _ _ => rfl) h1 h3 hx hy ⟨rfl, by decide⟩
    (unitRows_value (by rfl) _) hxa

end Verif
