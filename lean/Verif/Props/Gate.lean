import Verif.Spec.Request
import Verif.Spec.Calendar
import Verif.Props.Dates
import Verif.Uni.Inv
import Verif.Demo

/-!
# Request gates and call histories (C01-C04, C07-C11, C66)

`params "indices" = none` says that the caller does not use the undocumented key that the validator writes to;
C66 shows what happens otherwise.
-/

namespace Verif

open Spec

/-- **C01** (size gate). -/
theorem C01_size_gate {E : Env} {W : Wild} {d : Detector} {data : DataArg} {params : Params}
    {items : List Item} (hno : params "indices" = none)
    (h : (predict E W d data params).outcome = .ok items) :
    ∃ hasTs hasValue rows, data = .frame hasTs hasValue rows ∧ 12 ≤ rows.length ∧ rows.length ≤ 8640 := by
  obtain ⟨hasTs, hasValue, rows, mp, p', m, vs, idx, hd, -, -, hv, -, -⟩ := predict_validated hno h
  exact ⟨hasTs, hasValue, rows, hd, hv.lo, hv.hi⟩

/-- demonstration series: 14 points with one spike -/
def demoSeries : List Int := [1, 2, 1, 2, 1, 2, 1, 2, 1, 2, 1, 50, 1, 2]

def demoData : DataArg := .frame true true (demoRows demoSeries)

/-- non-vacuity: an accepted request -/
example : okLen (predict demoEnv demoWild entireDetector demoData
    (Params.ofList [("granularity", .str "secondly"), ("period", .int 0)])) = some 14 := by decide +kernel

theorem asInt_isInt {v : PyVal} {i : Int} (h : v.asInt? = some i) : IsInt v i := by
  cases v <;> simp [PyVal.asInt?] at h
  · rename_i b
    subst h
    cases b
    · exact .false
    · exact .true
  · subst h; exact .int _

theorem asNumber_isNumber {v : PyVal} {f : PyFloat} (h : v.asNumber? = some f) : IsNumber v f := by
  cases v <;> simp [PyVal.asNumber?] at h
  · rename_i b
    subst h
    cases b
    · exact .int .false
    · exact .int .true
  · subst h; exact .int (.int _)
  · subst h; exact .float _

theorem cellFloat_reads {E : Env} {v : PyVal} {q : ℚ} (h : cellFloat E v = .ok (.fin q)) :
    Reads E.parseFloat v q := by
  cases v with
  | bool b =>
    cases b
    · simp [cellFloat] at h; subst h; exact .int (i := 0) .false
    · simp [cellFloat] at h; subst h; exact .int (i := 1) .true
  | int i => simp [cellFloat] at h; subst h; exact .int (.int _)
  | float f => simp [cellFloat] at h; subst h; exact .float _
  | str s =>
    simp only [cellFloat] at h
    split at h
    · rename_i f hf
      simp only [Except.ok.injEq] at h
      subst h
      exact .str hf
    · cases h
  | _ => simp [cellFloat] at h

/-- **C02** (value gate). A result means that every value cell denotes a finite number of magnitude at most
10^100. -/
theorem C02_value_gate {E : Env} {W : Wild} {d : Detector} {data : DataArg} {params : Params}
    {items : List Item} (hno : params "indices" = none)
    (h : (predict E W d data params).outcome = .ok items) :
    ∃ hasTs rows, data = .frame hasTs true rows ∧
      ∀ r ∈ rows, ∃ q : ℚ, Reads E.parseFloat r.2 q ∧ |q| ≤ 10 ^ 100 := by
  obtain ⟨hasTs, hasValue, rows, mp, p', m, vs, idx, hd, -, -, hv, -, -⟩ := predict_validated hno h
  have hc := hv.values
  unfold cellValues at hc
  split at hc
  · rename_i hh
    refine ⟨hasTs, rows, by rw [hd, hh], ?_⟩
    have hf := mapM_except_ok hc
    intro r hr
    obtain ⟨v, hv1, hv2⟩ : ∃ v ∈ vs, cellFloat E r.2 = .ok v := by
      obtain ⟨i, hi, rfl⟩ := List.mem_iff_getElem.1 hr
      have hl := hf.length_eq
      exact ⟨vs[i]'(by omega), List.getElem_mem _, (List.forall₂_iff_get.1 hf).2 i hi (by omega)⟩
    obtain ⟨q, rfl, hq⟩ := hv.finite v hv1
    exact ⟨q, cellFloat_reads hv2, hq⟩
  · split at hc
    · have := hv.lo; omega
    · cases hc

theorem ascending_pairwise {ots : List (Option Stamp)} {ts : List Stamp} (h : ascendingCode ots = 0)
    (ha : allStamps ots = some ts) : ts.Pairwise fun a b => a.ns < b.ns := by
  have key : ∀ (ots : List (Option Stamp)) (ts : List Stamp), ascendingCode ots = 0 →
      allStamps ots = some ts → ts.IsChain fun a b => a.ns < b.ns := by
    intro ots
    induction ots with
    | nil => intro ts _ ha; simp [allStamps] at ha; subst ha; exact .nil
    | cons o t ih =>
      intro ts h ha
      cases o with
      | none => simp [allStamps] at ha
      | some a =>
        simp only [allStamps, Option.map_eq_some_iff] at ha
        obtain ⟨ts', hts', rfl⟩ := ha
        cases t with
        | nil => simp [allStamps] at hts'; subst hts'; exact .singleton _
        | cons o2 t2 =>
          cases o2 with
          | none => simp [allStamps] at hts'
          | some b =>
            rw [ascendingCode] at h
            split at h
            · omega
            · split at h
              · omega
              · have := ih ts' h hts'
                simp only [allStamps, Option.map_eq_some_iff] at hts'
                obtain ⟨ts2, -, rfl⟩ := hts'
                exact .cons_cons (by omega) this
  have : Trans (fun a b : Stamp => a.ns < b.ns) (fun a b : Stamp => a.ns < b.ns)
      (fun a b : Stamp => a.ns < b.ns) := ⟨fun h1 h2 => Int.lt_trans h1 h2⟩
  exact (key ots ts h ha).pairwise

theorem allStamps_eq {ots : List (Option Stamp)} {ts : List Stamp} (h : allStamps ots = some ts) :
    ots = ts.map some := by
  induction ots generalizing ts with
  | nil => simp [allStamps] at h; subst h; rfl
  | cons o t ih =>
    cases o with
    | none => simp [allStamps] at h
    | some a =>
      simp only [allStamps, Option.map_eq_some_iff] at h
      obtain ⟨ts', h', rfl⟩ := h
      rw [ih h']; rfl

theorem ofName_mem {s : String} {g : Granularity} (h : Granularity.ofName s = some g) : g.name = s := by
  unfold Granularity.ofName at h
  have := List.find?_some h
  simpa using this

/-- The requested granularity. -/
def requested (params : Params) (g : Granularity) : Prop := params "granularity" = some (.str g.name)

theorem name_injective {g g' : Granularity} (h : g.name = g'.name) : g = g' := by
  cases g <;> cases g' <;> simp_all [Granularity.name]

theorem parsed_granularity {E : Env} {hasTs hasValue : Bool} {rows : List (PyVal × PyVal)} {p p' : Params}
    {mp : ModelParams} {g : Granularity} (hp : Parsed E hasTs hasValue rows p p' mp) (hg : requested p g) :
    mp.granularity = g := by
  rcases hp.gran with ⟨h, -⟩ | ⟨s, h, hs⟩
  · unfold requested at hg; rw [h] at hg; cases hg
  · rw [requested, h] at hg
    simp only [Option.some.injEq, PyVal.str.injEq] at hg
    rw [hg] at hs
    exact name_injective (ofName_mem hs)

/-- **C03** (timestamp order gate). With a granularity other than `none` a result means that the timestamps
are parseable and strictly ascending. -/
theorem C03_timestamp_order {E : Env} {W : Wild} {d : Detector} {data : DataArg} {params : Params}
    {items : List Item} {g : Granularity} (hno : params "indices" = none) (hg : requested params g)
    (hg0 : g ≠ .none) (h : (predict E W d data params).outcome = .ok items) :
    ∃ (hasValue : Bool) (rows : List (PyVal × PyVal)) (ts : List Stamp), data = .frame true hasValue rows ∧
      E.toDatetime (rows.map (·.1)) = .ok (ts.map some) ∧ ts.Pairwise fun a b => a.ns < b.ns := by
  obtain ⟨hasTs, hasValue, rows, mp, p', m, vs, idx, hd, hp, -, hv, -, -⟩ := predict_validated hno h
  have e := parsed_granularity hp hg
  obtain ⟨ht, ots, ts, h1, h2, h3, h4⟩ := hv.stamps (by rw [e]; exact hg0)
  exact ⟨hasValue, rows, ts, by rw [hd, ht], by rw [h1, allStamps_eq h3], ascending_pairwise h2 h3⟩

/-- the requested interval, 1 if none -/
def requestedInterval (params : Params) (ci : Int) : Prop :=
  (params "customInterval" = none ∧ ci = 1) ∨ ∃ v, params "customInterval" = some v ∧ IsInt v ci

theorem isInt_unique {v : PyVal} {i j : Int} (h : IsInt v i) (h' : IsInt v j) : i = j := by
  cases h <;> cases h' <;> rfl

/-- the positions behind an accepted request -/
theorem accepted_indices {E : Env} {W : Wild} {d : Detector} {hasTs hasValue : Bool} {rows : List (PyVal × PyVal)}
    {params : Params} {items : List Item} {g : Granularity} {ci : Int} (hE : E.WF) (hno : params "indices" = none)
    (hg : requested params g) (hgn : g ≠ .none) (hci : requestedInterval params ci)
    (hcal : ∀ ts : List Stamp, E.toDatetime (rows.map (·.1)) = .ok (ts.map some) →
      (∀ t ∈ ts, Valid t) ∧ ∀ a ∈ ts, ∀ b ∈ ts, Coherent a b)
    (h : (predict E W d (.frame hasTs hasValue rows) params).outcome = .ok items) :
    ∃ (s : Stamp) (ts : List Stamp) (cio : Option Int) (idx : List Int), hasTs = true ∧
      E.toDatetime (rows.map (·.1)) = .ok ((s :: ts).map some) ∧ GoodStamps (s :: ts) ∧ effInterval cio = ci ∧
      getIndices g cio (s :: ts) = .ok (.ok idx) := by
  obtain ⟨hasTs', hasValue', rows', mp, p', m, vs, idx, hd, hp, -, hv, -, -⟩ := predict_validated hno h
  obtain ⟨rfl, rfl, rfl⟩ : hasTs = hasTs' ∧ hasValue = hasValue' ∧ rows = rows' := by simpa using hd
  have e := parsed_granularity hp hg
  obtain ⟨ht, ots, ts, h1, h2, h3, h4⟩ := hv.stamps (by rw [e]; exact hgn)
  rw [e] at h4
  have hasc := ascending_pairwise h2 h3
  rw [allStamps_eq h3] at h1
  obtain ⟨hc1, hc2⟩ := hcal _ h1
  have he : effInterval mp.interval = ci := by
    rcases hp.interval with ⟨a, b⟩ | ⟨v, i, a, b, c, hmi⟩
    · rcases hci with ⟨-, rfl⟩ | ⟨v, hv', -⟩
      · rw [b]; rfl
      · rw [a] at hv'; cases hv'
    · rcases hci with ⟨hn, -⟩ | ⟨w, hw, hi⟩
      · rw [a] at hn; cases hn
      · rw [a] at hw
        simp only [Option.some.injEq] at hw
        subst hw
        have := isInt_unique (asInt_isInt b) hi
        rw [hmi]; unfold effInterval; simp only [Option.getD_some]; omega
  cases ts with
  | nil =>
    exfalso
    have hrl := hv.lo
    have := hE.toDatetime_len _ _ h1
    simp at this
    simp [← this] at hrl
  | cons s ts =>
    refine ⟨s, ts, mp.interval, idx, ht, h1, ⟨hc1, ?_⟩, he, h4⟩
    intro s' hs' t htm
    simp only [List.head?_cons, Option.mem_def, Option.some.injEq] at hs'
    subst hs'
    have hle : s.ns ≤ t.ns := by
      rcases List.mem_cons.1 htm with rfl | htm
      · exact le_refl _
      · exact le_of_lt ((List.pairwise_cons.1 hasc).1 t htm)
    exact ⟨hle, (hc2 s (by simp) t htm).1 hle⟩

/-- **C04** (grid alignment gate). The timestamps of an accepted request lie on the grid, if they are whole seconds or
the granularity is monthly or yearly. -/
theorem C04_grid_alignment {E : Env} {W : Wild} {d : Detector} {hasTs hasValue : Bool} {rows : List (PyVal × PyVal)}
    {params : Params} {items : List Item} {g : Granularity} {ci : Int} (hE : E.WF) (hno : params "indices" = none)
    (hg : requested params g) (hgr : Gridded g) (hci : requestedInterval params ci)
    (hcal : ∀ ts : List Stamp, E.toDatetime (rows.map (·.1)) = .ok (ts.map some) →
      (∀ t ∈ ts, Valid t) ∧ (∀ a ∈ ts, ∀ b ∈ ts, Coherent a b) ∧ (stepSeconds g = none ∨ ∀ t ∈ ts, WholeSecond t))
    (h : (predict E W d (.frame hasTs hasValue rows) params).outcome = .ok items) :
    ∃ (s : Stamp) (ts : List Stamp), hasTs = true ∧
      E.toDatetime (rows.map (·.1)) = .ok ((s :: ts).map some) ∧
      ∀ t ∈ s :: ts, ∃ k : Int, OnGrid g ci s t k := by
  obtain ⟨s, ts, cio, idx, ht, h1, good, he, h4⟩ := accepted_indices hE hno hg hgr.1 hci
    (fun ts hts => ⟨(hcal ts hts).1, (hcal ts hts).2.1⟩) h
  refine ⟨s, ts, ht, h1, ?_⟩
  obtain ⟨-, -, hF⟩ := C05_index_map hgr good (hcal _ h1).2.2 h4
  have hF := hF s (by simp)
  rw [he] at hF
  intro t htm
  obtain ⟨i, hi, rfl⟩ := List.mem_iff_getElem.1 htm
  have hl := hF.length_eq
  exact ⟨idx[i]'(by omega), (List.forall₂_iff_get.1 hF).2 i hi (by omega)⟩

/-- **C04**, any instants: the timestamps of an accepted request lie within 20 microseconds of the grid. -/
theorem C04_near {E : Env} {W : Wild} {d : Detector} {hasTs hasValue : Bool} {rows : List (PyVal × PyVal)}
    {params : Params} {items : List Item} {g : Granularity} {ci : Int} (hE : E.WF) (hno : params "indices" = none)
    (hg : requested params g) (hgr : Gridded g) (hci : requestedInterval params ci)
    (hcal : ∀ ts : List Stamp, E.toDatetime (rows.map (·.1)) = .ok (ts.map some) →
      (∀ t ∈ ts, Valid t) ∧ (∀ a ∈ ts, ∀ b ∈ ts, Coherent a b) ∧ ∀ t ∈ ts, InRange t)
    (h : (predict E W d (.frame hasTs hasValue rows) params).outcome = .ok items) :
    ∃ (s : Stamp) (ts : List Stamp), hasTs = true ∧
      E.toDatetime (rows.map (·.1)) = .ok ((s :: ts).map some) ∧
      ∀ t ∈ s :: ts, ∃ k : Int, NearGrid g ci s t k := by
  obtain ⟨s, ts, cio, idx, ht, h1, good, he, h4⟩ := accepted_indices hE hno hg hgr.1 hci
    (fun ts hts => ⟨(hcal ts hts).1, (hcal ts hts).2.1⟩) h
  refine ⟨s, ts, ht, h1, ?_⟩
  have hF := C05_near hgr good (hcal _ h1).2.2 h4 s (by simp)
  rw [he] at hF
  intro t htm
  obtain ⟨i, hi, rfl⟩ := List.mem_iff_getElem.1 htm
  have hl := hF.length_eq
  exact ⟨idx[i]'(by omega), (List.forall₂_iff_get.1 hF).2 i hi (by omega)⟩

/-- **C65** at the level of `predict`: if a request of granularity `microsecond` is accepted, its stamps (whole
milliseconds from 3 November 2004 to 18 January 2038) are multiples of customInterval milliseconds apart, or of one
millisecond less. -/
theorem C65_accepted {E : Env} {W : Wild} {d : Detector} {hasTs hasValue : Bool} {rows : List (PyVal × PyVal)}
    {params : Params} {items : List Item} {ci : Int} (hE : E.WF) (hno : params "indices" = none)
    (hg : requested params .microsecond) (hci : requestedInterval params ci) (hci' : ci < 2 ^ 50)
    (hcal : ∀ ts : List Stamp, E.toDatetime (rows.map (·.1)) = .ok (ts.map some) →
      (∀ t ∈ ts, Valid t) ∧ (∀ a ∈ ts, ∀ b ∈ ts, Coherent a b) ∧
      ∀ t ∈ ts, ∃ m : Int, 2 ^ 40 < m ∧ m < 2 ^ 31 * 1000 ∧ t.ns = m * 1000000)
    (h : (predict E W d (.frame hasTs hasValue rows) params).outcome = .ok items) :
    ∃ (s : Stamp) (ts : List Stamp) (step : Int), E.toDatetime (rows.map (·.1)) = .ok ((s :: ts).map some) ∧
      (step = ci ∨ step = ci - 1) ∧ ∀ t ∈ s :: ts, ∃ k : Int, t.ns - s.ns = k * (step * 1000000) := by
  obtain ⟨s, ts, cio, idx, ht, h1, good, he, h4⟩ := accepted_indices hE hno hg (by decide) hci
    (fun ts hts => ⟨(hcal ts hts).1, (hcal ts hts).2.1⟩) h
  obtain ⟨step, hs, hF⟩ := C65_grid (by omega) (hcal _ h1).2.2 h4
  rw [he] at hs
  refine ⟨s, ts, step, h1, hs, ?_⟩
  intro t htm
  obtain ⟨i, hi, rfl⟩ := List.mem_iff_getElem.1 htm
  have hl := hF.length_eq
  exact ⟨idx[i]'(by omega), (List.forall₂_iff_get.1 hF).2 i hi (by omega)⟩

/-- the calendar hypothesis for the demonstration series, whose stamps all fall on one day -/
example : ∀ ts : List Stamp, demoEnv.toDatetime ((demoRows demoSeries).map (·.1)) = .ok (ts.map some) →
    (∀ t ∈ ts, Valid t) ∧ (∀ a ∈ ts, ∀ b ∈ ts, Coherent a b) ∧ ∀ t ∈ ts, WholeSecond t := by
  intro ts h
  have e : demoEnv.toDatetime ((demoRows demoSeries).map (·.1)) =
      .ok (((List.range 14).map fun (k : Nat) => demoStamp k).map some) := by decide +kernel
  rw [e] at h
  simp only [Except.ok.injEq] at h
  have h := List.map_injective_iff.2 (Option.some_injective _) h
  subst h
  unfold Valid Coherent DateLE monthNo WholeSecond
  decide +kernel

/-- an environment whose cells count milliseconds from 13 September 2020 -/
def milliEnv : Env := { demoEnv with
  toDatetime := fun l => l.mapM fun v => match v with
    | .int i => .ok (some ⟨(1600000000000 + i) * 1000000, 2020, 9, 13⟩)
    | _ => .error .valueError }

/-- a request of granularity `microsecond` with customInterval 4007: rows 4006 ms apart are accepted, rows 4007 ms apart
are refused -/
example :
    okLen (predict milliEnv demoWild entireDetector (.frame true true (demoRows demoSeries 4006))
      (Params.ofList [("granularity", .str "microsecond"), ("customInterval", .int 4007)])) = some 14 ∧
    errOf (predict milliEnv demoWild entireDetector (.frame true true (demoRows demoSeries 4007))
      (Params.ofList [("granularity", .str "microsecond"), ("customInterval", .int 4007)])) = some .valueError := by
  decide +kernel

end Verif
