import Verif.Spec.Output
import Verif.Props.Trace
import Verif.Props.Margin
import Verif.Props.Gate

/-!
# The returned items (C12-C19, C21-C23)

Every theorem is about an arbitrary successful call of `predict`. `FiniteFill` excludes requests whose fill constant
is not a finite number; there `None` or a non-finite number enters the series, which is outside the model.
-/

namespace Verif

open Spec

theorem inMode_current {d : Detector} {params after : Params} {m : DetectType} {mode : PyVal}
    (hm : InMode d params m) (hf : ∀ k, k ∉ writtenKeys → after k = params k)
    (h : currentMode d.mode after = some mode) : mode = .dtype m := by
  unfold currentMode at h
  rcases hm with hm | ⟨hm, hp⟩
  · rw [hm] at h
    simpa [PyVal.isNone] using h.symm
  · rw [hm] at h
    rw [if_pos (by rfl), hf _ (by decide), hp] at h
    simpa using h.symm

theorem Trace.mode_eq {E : Env} {d : Detector} {data : DataArg} {params : Params} {items : List Item}
    (T : Trace E d data params items) {m : DetectType} (hm : InMode d params m) : T.mode = .dtype m :=
  inMode_current hm T.parsed.frame T.isMode

theorem paramSens_range {E : Env} {hasTs hasValue : Bool} {rows : List (PyVal × PyVal)} {p p' : Params}
    {mp : ModelParams} (h : Parsed E hasTs hasValue rows p p' mp) : 0 ≤ paramSens p' ∧ paramSens p' ≤ 100 := by
  unfold paramSens
  rcases h.sensitivity with ⟨-, h⟩ | ⟨v, i, -, h1, h2, h3, h4⟩
  · rw [h]; simp [PyVal.asInt?]
  · rw [h4]; simp [h1, h2, h3]

theorem Trace.ready {E : Env} (hE : E.WF) {d : Detector} {data : DataArg} {params : Params} {items : List Item}
    (T : Trace E d data params items) : ∀ r ∈ T.frame0.map clearNear, r.Ready := by
  intro r hr
  obtain ⟨r0, h0, rfl⟩ := List.mem_map.1 hr
  exact clearNear_ready ((T.frameOk hE).flags r0 h0)

theorem length_rowStamps (hasTs : Bool) (rows : List (PyVal × PyVal)) :
    (rowStamps hasTs rows).length = rows.length := by
  unfold rowStamps
  split <;> simp

theorem rowStamps_spec {hasTs : Bool} {rows : List (PyVal × PyVal)} {i : Nat} {ts : PyVal}
    (h : (rowStamps hasTs rows)[i]? = some ts) : RowStamp hasTs rows i ts := by
  unfold rowStamps at h
  cases hasTs
  · simp only [Bool.false_eq_true, if_false, List.getElem?_map, Option.map_eq_some_iff] at h
    obtain ⟨j, hj, rfl⟩ := h
    obtain ⟨h1, rfl⟩ := List.getElem?_eq_some_iff.1 hj
    rw [List.length_range] at h1
    exact ⟨rows[i], List.getElem?_eq_getElem h1, by simp⟩
  · simp only [if_true, List.getElem?_map, Option.map_eq_some_iff] at h
    obtain ⟨c, hc, rfl⟩ := h
    exact ⟨c, hc, by simp⟩

/-- an item of the answer with the row of the detection frame and the margins it comes from -/
structure ItemOk (T : Nat) (frame : List Row) (stamps : List PyVal) (sw : Option Nat) (i : Nat) (it : Item) : Prop where
  ex : ∃ r o ts, frame[i]? = some r ∧ OutOk r o ∧ stamps[i]? = some ts ∧ it = mkItem ts o T sw

theorem finish_entire {stamps : List PyVal} {frame : List Row} {per : Nat} {model : ModelType} {sens : Int}
    {bv : BoundaryVersion} {g : Granularity} {items : List Item} (hs : sens ≤ 100) (hr : ∀ r ∈ frame, r.Ready)
    (h : finish (.dtype .ENTIRE) stamps frame per model sens bv g = .ok items) :
    frame.length = stamps.length ∧ items.length = frame.length ∧
      ∀ k it, items[k]? = some it → ItemOk per frame stamps none k it := by
  unfold finish at h
  split at h
  · cases h
  rename_i hl
  have hl := not_not.1 hl
  simp only at h
  obtain ⟨outs, ho, h⟩ := ebind_ok.1 h
  have hok := getMargins_ok hs hr ho
  have e := epure_ok.1 h
  refine ⟨hl, ?_, ?_⟩
  · rw [← e, List.length_zipWith, ← hok.length_eq, hl, min_self]
  · intro k it hk
    rw [← e, List.getElem?_zipWith_eq_some] at hk
    obtain ⟨ts, o, h1, h2, rfl⟩ := hk
    obtain ⟨h3, rfl⟩ := List.getElem?_eq_some_iff.1 h2
    have h4 : k < frame.length := by rw [hok.length_eq]; exact h3
    exact ⟨⟨frame[k], outs[k], ts, List.getElem?_eq_getElem h4,
      (List.forall₂_iff_get.1 hok).2 k h4 h3, h1, rfl⟩⟩

theorem finish_latest {stamps : List PyVal} {frame : List Row} {per : Nat} {model : ModelType} {sens : Int}
    {bv : BoundaryVersion} {g : Granularity} {items : List Item} (hs : sens ≤ 100) (hr : ∀ r ∈ frame, r.Ready)
    (h : finish (.dtype .LATEST) stamps frame per model sens bv g = .ok items) :
    frame.length = stamps.length ∧ ∃ it, items = [it] ∧
      ItemOk per frame stamps (some (suggestedWindow per g)) (frame.length - 1) it := by
  unfold finish at h
  split at h
  · cases h
  rename_i hl
  have hl := not_not.1 hl
  simp only at h
  obtain ⟨o, ho, h⟩ := ebind_ok.1 h
  obtain ⟨r, hr', hok⟩ := getMarginsLast_ok hs hr ho
  split at h
  · rename_i ts hts
    refine ⟨hl, _, (epure_ok.1 h).symm, ⟨r, o, ts, ?_, hok, ?_, rfl⟩⟩
    · rw [← List.getLast?_eq_getElem?]; exact hr'
    · rw [hl, ← List.getLast?_eq_getElem?]; exact hts
  · cases h

/-- item `k` belongs to the row it concerns -/
theorem Trace.item {E : Env} (hE : E.WF) {d : Detector} {data : DataArg} {params : Params} {items : List Item}
    (T : Trace E d data params items) {m : DetectType} (hm : InMode d params m) {k i : Nat} {it : Item}
    (hk : items[k]? = some it) (hi : Concerns m T.rows.length k i) :
    ∃ sw, ItemOk T.period (T.frame0.map clearNear) (rowStamps T.hasTs T.rows) sw i it := by
  have hf := T.finished
  rw [T.mode_eq hm] at hf
  have hs := (paramSens_range T.parsed).2
  cases m with
  | ENTIRE =>
    have hi : i = k := hi
    subst hi
    exact ⟨none, (finish_entire hs (T.ready hE) hf).2.2 i it hk⟩
  | LATEST =>
    obtain ⟨hk0, hi⟩ : k = 0 ∧ i + 1 = T.rows.length := hi
    obtain ⟨h1, it', rfl, h2⟩ := finish_latest hs (T.ready hE) hf
    subst hk0
    simp only [List.getElem?_cons_zero, Option.some.injEq] at hk
    subst hk
    rw [length_rowStamps] at h1
    have : i = (T.frame0.map clearNear).length - 1 := by omega
    rw [this]
    exact ⟨_, h2⟩

/-- every item concerns some row -/
theorem Trace.concerns {E : Env} (hE : E.WF) {d : Detector} {data : DataArg} {params : Params} {items : List Item}
    (T : Trace E d data params items) {m : DetectType} (hm : InMode d params m) {k : Nat} {it : Item}
    (hk : items[k]? = some it) : ∃ i, Concerns m T.rows.length k i ∧ i < T.rows.length := by
  have hf := T.finished
  rw [T.mode_eq hm] at hf
  have hs := (paramSens_range T.parsed).2
  have hlen := T.len hE
  cases m with
  | ENTIRE =>
    obtain ⟨h1, h2, -⟩ := finish_entire hs (T.ready hE) hf
    have := (List.getElem?_eq_some_iff.1 hk).1
    rw [length_rowStamps] at h1
    exact ⟨k, rfl, by omega⟩
  | LATEST =>
    obtain ⟨h1, it', rfl, h2⟩ := finish_latest hs (T.ready hE) hf
    have := (List.getElem?_eq_some_iff.1 hk).1
    simp only [List.length_singleton] at this
    exact ⟨T.rows.length - 1, ⟨by omega, by omega⟩, by omega⟩

/-- the number in a cell is unique -/
theorem reads_unique {parse : String → Option PyFloat} {v : PyVal} {a b : ℚ} (ha : Reads parse v a)
    (hb : Reads parse v b) : a = b := by
  cases ha with
  | int h =>
    cases hb with
    | int h' => rw [isInt_unique h h']
    | float q => cases h
    | str h' => cases h
  | float q =>
    cases hb with
    | int h' => cases h'
    | float q => rfl
  | str h =>
    cases hb with
    | int h' => cases h'
    | str h' => rw [h] at h'; simpa using h'

/-- the detection frame carries the input values -/
theorem Trace.value {E : Env} (hE : E.WF) {d : Detector} {data : DataArg} {params : Params} {items : List Item}
    (T : Trace E d data params items) {i : Nat} {r : Row} (hr : (T.frame0.map clearNear)[i]? = some r) {q : ℚ}
    (hq : RowValue E.parseFloat T.rows i q) : r.value = q := by
  obtain ⟨c, hc, hq⟩ := hq
  have hv := T.validated.values
  unfold cellValues at hv
  split at hv
  · have hf := mapM_except_ok hv
    obtain ⟨hi, rfl⟩ := List.getElem?_eq_some_iff.1 hc
    have hl := hf.length_eq
    have h1 := (List.forall₂_iff_get.1 hf).2 i hi (by omega)
    simp only [List.get_eq_getElem, List.getElem_map] at h1
    have h2 := reads_unique (cellFloat_reads h1) hq
    rw [← h2]
    have h3 : ((T.frame0.map clearNear).map (·.value)) = T.M.values := by
      rw [← (T.frameOk hE).values, List.map_map]
      congr 1
      funext r
      simp
    have h4 : ((T.frame0.map clearNear).map (·.value))[i]? = some r.value := by
      rw [List.getElem?_map, hr]; rfl
    rw [h3] at h4
    obtain ⟨h5, h6⟩ := List.getElem?_eq_some_iff.1 h4
    exact h6.symm
  · split at hv
    · rename_i hz
      obtain ⟨hi, -⟩ := List.getElem?_eq_some_iff.1 hc
      omega
    · cases hv

/-- **C12** (entire mode answers every point in order). -/
theorem C12_entire_items {E : Env} (hE : E.WF) {W : Wild} {d : Detector} {hasTs hasValue : Bool}
    {rows : List (PyVal × PyVal)} {params : Params} {items : List Item} (hno : params "indices" = none)
    (hf : FiniteFill E (.frame hasTs hasValue rows) params) (hm : InMode d params .ENTIRE)
    (h : (predict E W d (.frame hasTs hasValue rows) params).outcome = .ok items) :
    items.length = rows.length ∧ ∀ k it, items[k]? = some it → RowStamp hasTs rows k it.timestamp := by
  obtain ⟨T⟩ := predict_trace hE hno hf h
  obtain ⟨eT, -, eR⟩ : hasTs = T.hasTs ∧ hasValue = T.hasValue ∧ rows = T.rows := by
    simpa using T.isFrame
  suffices key : items.length = T.rows.length ∧
      ∀ k it, items[k]? = some it → RowStamp T.hasTs T.rows k it.timestamp by rwa [← eR, ← eT] at key
  have hfin := T.finished
  rw [T.mode_eq hm] at hfin
  obtain ⟨h1, h2, h3⟩ := finish_entire (paramSens_range T.parsed).2 (T.ready hE) hfin
  rw [length_rowStamps] at h1
  refine ⟨by omega, ?_⟩
  intro k it hk
  obtain ⟨r, o, ts, -, -, h4, rfl⟩ := (h3 k it hk).ex
  exact rowStamps_spec h4

/-- **C13** (latest mode answers the last point). The flags and margins of the item refer to the last row by C16. -/
theorem C13_latest_item {E : Env} (hE : E.WF) {W : Wild} {d : Detector} {hasTs hasValue : Bool}
    {rows : List (PyVal × PyVal)} {params : Params} {items : List Item} (hno : params "indices" = none)
    (hf : FiniteFill E (.frame hasTs hasValue rows) params) (hm : InMode d params .LATEST)
    (h : (predict E W d (.frame hasTs hasValue rows) params).outcome = .ok items) :
    ∃ it, items = [it] ∧ RowStamp hasTs rows (rows.length - 1) it.timestamp := by
  obtain ⟨T⟩ := predict_trace hE hno hf h
  obtain ⟨eT, -, eR⟩ : hasTs = T.hasTs ∧ hasValue = T.hasValue ∧ rows = T.rows := by
    simpa using T.isFrame
  suffices key : ∃ it, items = [it] ∧ RowStamp T.hasTs T.rows (T.rows.length - 1) it.timestamp by
    rwa [← eR, ← eT] at key
  have hfin := T.finished
  rw [T.mode_eq hm] at hfin
  obtain ⟨h1, it, rfl, h2⟩ := finish_latest (paramSens_range T.parsed).2 (T.ready hE) hfin
  obtain ⟨r, o, ts, -, -, h4, e⟩ := h2.ex
  rw [h1, length_rowStamps] at h4
  have ets : it.timestamp = ts := congrArg Item.timestamp e
  exact ⟨it, rfl, ets ▸ rowStamps_spec h4⟩

/-- every item in one lemma -/
theorem item_facts {E : Env} (hE : E.WF) {W : Wild} {d : Detector} {hasTs hasValue : Bool}
    {rows : List (PyVal × PyVal)} {params : Params} {items : List Item} (hno : params "indices" = none)
    (hf : FiniteFill E (.frame hasTs hasValue rows) params) {m : DetectType} (hm : InMode d params m)
    (h : (predict E W d (.frame hasTs hasValue rows) params).outcome = .ok items)
    {k : Nat} {it : Item} (hk : items[k]? = some it) :
    ∃ i r o, Concerns m rows.length k i ∧ i < rows.length ∧ OutOk r o ∧ r.Ready ∧
      (m = .ENTIRE ∨ SrRegular E → r.Dir) ∧ r.Weak ∧ (∀ q, RowValue E.parseFloat rows i q → r.value = q) ∧
      it.expected = o.expected ∧ it.upper = o.upper ∧ it.lower = o.lower ∧ it.anom = o.anom ∧ it.pos = o.pos ∧
      it.neg = o.neg := by
  obtain ⟨T⟩ := predict_trace hE hno hf h
  obtain ⟨eT, -, eR⟩ : hasTs = T.hasTs ∧ hasValue = T.hasValue ∧ rows = T.rows := by
    simpa using T.isFrame
  rw [eR]
  obtain ⟨i, hi, hin⟩ := T.concerns hE hm hk
  obtain ⟨sw, hitem⟩ := T.item hE hm hk hi
  obtain ⟨r, o, ts, h1, h2, -, rfl⟩ := hitem.ex
  refine ⟨i, r, o, hi, hin, h2, T.ready hE r (List.mem_of_getElem? h1), ?_, ?_, fun q hq => T.value hE h1 hq,
    rfl, rfl, rfl, rfl, rfl, rfl⟩
  · intro hd
    obtain ⟨r0, h0, rfl⟩ := List.mem_map.1 (List.mem_of_getElem? h1)
    refine clearNear_dir ((T.frameOk hE).direction ?_ r0 h0)
    rcases hd with rfl | hd
    · left
      rw [T.mode_eq hm]
      rfl
    · exact .inr hd
  · obtain ⟨r0, h0, rfl⟩ := List.mem_map.1 (List.mem_of_getElem? h1)
    exact clearNear_weak ((T.frameOk hE).weak r0 h0)

theorem concerns_unique {m : DetectType} {n k i j : Nat} (h : Concerns m n k i) (h' : Concerns m n k j) : i = j := by
  cases m
  · have h : i = k := h
    have h' : j = k := h'
    omega
  · obtain ⟨-, h⟩ : k = 0 ∧ i + 1 = n := h
    obtain ⟨-, h'⟩ : k = 0 ∧ j + 1 = n := h'
    omega

/-- **C14** (flags are consistent). -/
theorem C14_flags_consistent {E : Env} (hE : E.WF) {W : Wild} {d : Detector} {data : DataArg} {params : Params}
    {items : List Item} (hno : params "indices" = none) (hf : FiniteFill E data params) {m : DetectType}
    (hm : InMode d params m) (h : (predict E W d data params).outcome = .ok items) :
    ∀ it ∈ items, (it.anom = true ↔ (it.pos = true ∨ it.neg = true)) ∧ ¬ (it.pos = true ∧ it.neg = true) := by
  intro it hit
  obtain ⟨k, hk⟩ := List.mem_iff_getElem?.1 hit
  obtain ⟨hasTs, hasValue, rows, -, -, -, rfl, -⟩ := predict_ok h
  obtain ⟨i, r, o, -, -, ho, -, -, -, -, -, -, -, e4, e5, e6⟩ := item_facts hE hno hf hm h hk
  rw [e4, e5, e6]
  refine ⟨?_, ho.excl⟩
  rw [ho.flags, Bool.or_eq_true]

/-- **C15** (direction agrees with the value), ENTIRE mode. -/
theorem C15_direction_entire {E : Env} (hE : E.WF) {W : Wild} {d : Detector} {hasTs hasValue : Bool}
    {rows : List (PyVal × PyVal)} {params : Params} {items : List Item} (hno : params "indices" = none)
    (hf : FiniteFill E (.frame hasTs hasValue rows) params) (hm : InMode d params .ENTIRE)
    (h : (predict E W d (.frame hasTs hasValue rows) params).outcome = .ok items)
    {k : Nat} {it : Item} (hk : items[k]? = some it) {q : ℚ} (hq : RowValue E.parseFloat rows k q) :
    (it.pos = true → it.expected < q) ∧ (it.neg = true → q < it.expected) := by
  obtain ⟨i, r, o, hi, -, ho, hr, hd, -, hv, e1, -, -, -, e5, e6⟩ := item_facts hE hno hf hm h hk
  have hi : i = k := hi
  subst hi
  rw [e1, e5, e6, ho.expected, ← hv q hq]
  exact ⟨fun x => hr.above (hd (.inl rfl)) (ho.posDir x), fun x => hr.below (hd (.inl rfl)).weak (ho.negDir x)⟩

/-- **C15** in any mode and without assumptions on the spectral residual: a negative anomaly lies below its expected
value; a positive anomaly lies above it, or the request was in LATEST mode and the expected value is reported as 0.
The last case occurs (`C15_wrong_direction`): if no spectral residual score is at most 1 the expected value of the last
point is NaN, an anomaly there counts as positive, and 0 is reported as expected value. -/
theorem C15_direction {E : Env} (hE : E.WF) {W : Wild} {d : Detector}
    {hasTs hasValue : Bool} {rows : List (PyVal × PyVal)} {params : Params} {items : List Item}
    (hno : params "indices" = none) (hf : FiniteFill E (.frame hasTs hasValue rows) params) {m : DetectType}
    (hm : InMode d params m) (h : (predict E W d (.frame hasTs hasValue rows) params).outcome = .ok items)
    {k i : Nat} {it : Item} (hk : items[k]? = some it) (hi : Concerns m rows.length k i) {q : ℚ}
    (hq : RowValue E.parseFloat rows i q) :
    (it.pos = true → it.expected < q ∨ (m = .LATEST ∧ it.expected = 0)) ∧ (it.neg = true → q < it.expected) := by
  obtain ⟨j, r, o, hj, -, ho, hr, hd, hw, hv, e1, -, -, -, e5, e6⟩ := item_facts hE hno hf hm h hk
  have := concerns_unique hi hj
  subst this
  rw [e1, e5, e6, ho.expected, ← hv q hq]
  refine ⟨fun x => ?_, fun x => hr.below hw (ho.negDir x)⟩
  cases m
  · exact .inl (hr.above (hd (.inl rfl)) (ho.posDir x))
  · rcases ho.posDir x with hp | hp
    · rcases hw.pos hp with hc | hc
      · exact .inl (lt_of_le_of_ne hc (Ne.symm (hr.ne (hr.pos_anom hp))))
      · exact .inr ⟨rfl, hc⟩
    · exact .inl hp

/-- **C15** in any mode, if the first magnitude of the spectral residual transform is never in the window of width
1e-13 described by `SrRegular`. -/
theorem C15_direction_regular {E : Env} (hE : E.WF) (hsr : SrRegular E) {W : Wild} {d : Detector}
    {hasTs hasValue : Bool} {rows : List (PyVal × PyVal)} {params : Params} {items : List Item}
    (hno : params "indices" = none) (hf : FiniteFill E (.frame hasTs hasValue rows) params) {m : DetectType} (hm : InMode d params m)
    (h : (predict E W d (.frame hasTs hasValue rows) params).outcome = .ok items)
    {k i : Nat} {it : Item} (hk : items[k]? = some it) (hi : Concerns m rows.length k i) {q : ℚ}
    (hq : RowValue E.parseFloat rows i q) :
    (it.pos = true → it.expected < q) ∧ (it.neg = true → q < it.expected) := by
  obtain ⟨j, r, o, hj, -, ho, hr, hd, -, hv, e1, -, -, -, e5, e6⟩ := item_facts hE hno hf hm h hk
  have := concerns_unique hi hj
  subst this
  rw [e1, e5, e6, ho.expected, ← hv q hq]
  exact ⟨fun x => hr.above (hd (.inr hsr)) (ho.posDir x), fun x => hr.below (hd (.inr hsr)).weak (ho.negDir x)⟩

/-- **C16** (the band separates anomalies from normal points). -/
theorem C16_band {E : Env} (hE : E.WF) {W : Wild} {d : Detector} {hasTs hasValue : Bool}
    {rows : List (PyVal × PyVal)} {params : Params} {items : List Item} (hno : params "indices" = none)
    (hf : FiniteFill E (.frame hasTs hasValue rows) params) {m : DetectType} (hm : InMode d params m)
    (h : (predict E W d (.frame hasTs hasValue rows) params).outcome = .ok items)
    {k i : Nat} {it : Item} (hk : items[k]? = some it) (hi : Concerns m rows.length k i) {q : ℚ}
    (hq : RowValue E.parseFloat rows i q) : it.anom = false ↔ InBand it q := by
  obtain ⟨j, r, o, hj, -, ho, -, -, -, hv, e1, e2, e3, e4, -, -⟩ := item_facts hE hno hf hm h hk
  have := concerns_unique hi hj
  subst this
  unfold InBand
  rw [e1, e2, e3, e4, ho.expected, ← hv q hq]
  exact ho.band

/-- **C17** (margins are never negative). -/
theorem C17_margins_nonneg {E : Env} (hE : E.WF) {W : Wild} {d : Detector} {data : DataArg} {params : Params}
    {items : List Item} (hno : params "indices" = none) (hf : FiniteFill E data params) {m : DetectType}
    (hm : InMode d params m) (h : (predict E W d data params).outcome = .ok items) :
    ∀ it ∈ items, 0 ≤ it.upper ∧ 0 ≤ it.lower := by
  intro it hit
  obtain ⟨k, hk⟩ := List.mem_iff_getElem?.1 hit
  obtain ⟨hasTs, hasValue, rows, -, -, -, rfl, -⟩ := predict_ok h
  obtain ⟨i, r, o, -, -, ho, -, -, -, -, -, e2, e3, -, -, -⟩ := item_facts hE hno hf hm h hk
  rw [e2, e3]
  exact ⟨ho.upper, ho.lower⟩

/-- **C21** (points equal to their expectation are never anomalies). -/
theorem C21_near_points {E : Env} (hE : E.WF) {W : Wild} {d : Detector} {hasTs hasValue : Bool}
    {rows : List (PyVal × PyVal)} {params : Params} {items : List Item} (hno : params "indices" = none)
    (hf : FiniteFill E (.frame hasTs hasValue rows) params) {m : DetectType} (hm : InMode d params m)
    (h : (predict E W d (.frame hasTs hasValue rows) params).outcome = .ok items)
    {k i : Nat} {it : Item} (hk : items[k]? = some it) (hi : Concerns m rows.length k i) {q : ℚ}
    (hq : RowValue E.parseFloat rows i q) (hnear : |q - it.expected| < 1 / 10 ^ 8) : it.anom = false := by
  obtain ⟨j, r, o, hj, -, ho, hr, -, -, hv, e1, -, -, e4, -, -⟩ := item_facts hE hno hf hm h hk
  have := concerns_unique hi hj
  subst this
  rw [e1, ho.expected, ← hv q hq] at hnear
  rw [e4]
  by_contra hc
  have h1 := hr.near (ho.implies (by simpa using hc))
  unfold EPS at h1
  norm_num at hnear h1
  linarith

/-- the reported period -/
theorem item_period {E : Env} (hE : E.WF) {W : Wild} {d : Detector} {data : DataArg} {params : Params}
    {items : List Item} (hno : params "indices" = none) (hf : FiniteFill E data params) {m : DetectType}
    (hm : InMode d params m) (h : (predict E W d data params).outcome = .ok items) :
    ∃ T : Trace E d data params items, ∀ it ∈ items, it.period = T.period := by
  obtain ⟨T⟩ := predict_trace hE hno hf h
  refine ⟨T, ?_⟩
  intro it hit
  obtain ⟨k, hk⟩ := List.mem_iff_getElem?.1 hit
  obtain ⟨i, hi, -⟩ := T.concerns hE hm hk
  obtain ⟨sw, hitem⟩ := T.item hE hm hk hi
  obtain ⟨r, o, ts, -, -, -, rfl⟩ := hitem.ex
  rfl

/-! ### a concrete case

Fourteen points on a grid of seventeen positions with two spikes; the hypotheses of the theorems above hold for it,
in both modes, and the answers are not trivial. -/

def gapRows : List (PyVal × PyVal) :=
  ([(0, 1), (1, 2), (2, 1), (3, 2), (6, 1), (7, 2), (8, 1), (9, 30), (10, 1), (11, 2), (12, 1), (13, 2), (14, 1),
    (16, 20)] : List (Int × Int)).map fun x => (.int x.1, .int x.2)

/-- a request with period 2 and V2 boundaries -/
def gapParams (sens : Int) : Params := Params.ofList
  [("granularity", .str "secondly"), ("period", .int 2), ("boundaryVersion", .str "V2"), ("sensitivity", .int sens)]

example (s : Int) : gapParams s "indices" = none ∧ FiniteFill demoEnv (.frame true true gapRows) (gapParams s) ∧
    InMode entireDetector (gapParams s) .ENTIRE ∧ InMode latestDetector (gapParams s) .LATEST := by
  refine ⟨by simp [gapParams, Params.ofList, Params.set], .inl ⟨?_, ?_⟩, .inl rfl, .inl rfl⟩
  · simp [gapParams, Params.ofList, Params.set]
  · intro f
    simp [gapParams, Params.ofList, Params.set]

/-- `imputeMode='fixed'` is covered when no position is missing: here without a granularity -/
example (vs : List Int) : FiniteFill demoEnv (.frame true true (demoRows vs))
    (Params.ofList [("imputeMode", .str "fixed"), ("imputeFixedValue", .int 7)]) := by
  right
  rintro hasTs hasValue rows idx h (⟨-, rfl⟩ | ⟨g, ci, ts, hg, -⟩)
  · unfold Gapless
    cases rows.length with
    | zero => simp
    | succ n => simp [List.range_succ]
  · simp [requested, Params.ofList, Params.set] at hg

/-- flags (anomaly, positive, negative) of the answers: the two spikes; the second one is the latest point -/
example : okFlags (predict demoEnv demoWild entireDetector (.frame true true gapRows) (gapParams 60)) =
    some ((List.range 14).map fun i => (decide (i = 7 ∨ i = 13), decide (i = 7 ∨ i = 13), false)) := by decide +kernel

example : okFlags (predict demoEnv demoWild latestDetector (.frame true true gapRows) (gapParams 60)) =
    some [(true, true, false)] := by decide +kernel

/-- ... with version 1 boundaries and no requested period -/
example : okFlags (predict demoEnv demoWild entireDetector (.frame true true gapRows)
      (Params.ofList [("granularity", .str "secondly")])) =
    some ((List.range 14).map fun i => (decide (i = 7), decide (i = 7), false)) := by decide +kernel

/-! ### a positive anomaly below its expected value -/

/-- magnitudes just above 2e-8, except at the latest point -/
def edgeEnv : Env := { demoEnv with
  sqrt := fun x => if x ≤ 0 then 0 else 1
  srTransform := fun l =>
    (List.range l.length).map fun i => if i + 6 = l.length then 1 else 2 * EPS + 1 / 20000000000000 }

theorem edgeEnv_WF : edgeEnv.WF := { demoEnv_WF with
  sqrt_nonneg := fun x => by
    show (0 : ℚ) ≤ if x ≤ 0 then 0 else 1
    split
    · exact le_rfl
    · exact zero_le_one
  sqrt_zero := fun x hx => by
    show (if x ≤ 0 then 0 else 1) = (0 : ℚ) ↔ x = 0
    split
    · rename_i h
      exact ⟨fun _ => le_antisymm h hx, fun _ => rfl⟩
    · rename_i h
      push Not at h
      exact ⟨fun e => absurd e one_ne_zero, fun e => absurd e (ne_of_gt h)⟩
  sr_len := fun l => by simp [edgeEnv]
  sr_nonneg := fun l x hx => by
    obtain ⟨i, -, rfl⟩ := List.mem_map.1 hx
    split
    · exact zero_le_one
    · norm_num [EPS] }

/-- fourteen minutes of small values, then -100 -/
def edgeRows : List (PyVal × PyVal) :=
  (List.range 14).map fun (i : Nat) => (.int (i * 60), .int (if i = 13 then -100 else if i % 2 = 0 then 1 else 2))

/-- a minutely request without period -/
def edgeParams : Params := Params.ofList [("granularity", .str "minutely"), ("period", .int 0)]

/-- **C15**, the exception in LATEST mode: with library functions that obey the assumed laws a last value of -100 is
reported as a positive anomaly with expected value 0. -/
theorem C15_wrong_direction : ∃ E : Env, E.WF ∧ ∃ items it,
    edgeParams "indices" = none ∧ FiniteFill E (.frame true true edgeRows) edgeParams ∧
    InMode latestDetector edgeParams .LATEST ∧
    (predict E demoWild latestDetector (.frame true true edgeRows) edgeParams).outcome = .ok items ∧
    items[0]? = some it ∧ RowValue E.parseFloat edgeRows 13 (-100) ∧
    it.pos = true ∧ it.neg = false ∧ it.expected = 0 := by
  have h : (match (predict edgeEnv demoWild latestDetector (.frame true true edgeRows) edgeParams).outcome with
      | .ok [it] => it.pos && !it.neg && decide (it.expected = 0)
      | _ => false) = true := by decide +kernel
  split at h
  · rename_i it hout
    simp only [Bool.and_eq_true, Bool.not_eq_true', decide_eq_true_eq] at h
    refine ⟨edgeEnv, edgeEnv_WF, [it], it, by simp [edgeParams, Params.ofList, Params.set], .inl ⟨?_, ?_⟩, .inl rfl,
      hout, rfl, ?_, h.1.1, h.1.2, h.2⟩
    · simp [edgeParams, Params.ofList, Params.set]
    · intro f
      simp [edgeParams, Params.ofList, Params.set]
    · exact ⟨(.int (13 * 60), .int (-100)), rfl, by simpa using Reads.int (parse := edgeEnv.parseFloat) (IsInt.int (-100))⟩
  · cases h

end Verif
