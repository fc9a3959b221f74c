import Verif.Props.Fill
import Verif.Props.Rows
import Verif.Props.Dates
import Verif.Props.Gate

/-!
# What stands behind an answer of `predict`

A request whose fill constant is a finite number never leaves the modelled part of the code, and an answer to it
comes from one run of parsing, filling, detection and margins, collected in `Trace`.
-/

namespace Verif

open Spec

/-- Where the points of a request lie on the time grid: consecutive without a granularity, else as computed by
`get_indices_from_timestamps` (C05). -/
def Positions (E : Env) (params : Params) (hasTs : Bool) (rows : List (PyVal × PyVal)) (idx : List Int) : Prop :=
  ((params "granularity" = none ∨ requested params .none) ∧
      idx = (List.range rows.length).map Int.ofNat) ∨
    ∃ (g : Granularity) (ci : Option Int) (ts : List Stamp), requested params g ∧ g ≠ .none ∧ hasTs = true ∧
      ((params "customInterval" = none ∧ ci = none) ∨
        ∃ v i, params "customInterval" = some v ∧ IsInt v i ∧ ci = some i) ∧
      E.toDatetime (rows.map (·.1)) = .ok (ts.map some) ∧ getIndices g ci ts = .ok (.ok idx)

/-- the grid reaches up to the last position -/
theorem allCount_last {idx : List Int} {vs : List ℚ} {P : FillProc} (hne : idx ≠ [])
    (h : FillProc.init idx vs = .ok P) : (P.allCount : Int) = idx.getLastD 0 + 1 := by
  obtain ⟨hg, hidx, -⟩ := FillProc.init_good hne h
  have hin : P.indices ≠ [] := by
    intro e
    rw [e] at hidx
    exact hne (by simpa using hidx)
  have h1 := hg.inside _ (List.getLast_mem hin)
  have h2 : P.allCount - 1 ≤ P.indices.getLast hin := by
    obtain ⟨k, hk, hkl⟩ := List.mem_iff_getElem.1 hg.last
    rw [List.getLast_eq_getElem, ← hkl]
    by_cases hkk : k = P.indices.length - 1
    · simp [hkk]
    · exact le_of_lt (List.pairwise_iff_getElem.1 hg.sorted _ _ hk (by omega) (by omega))
  have h3 := hg.pos
  rw [hidx, List.getLastD_eq_getLast?, List.getLast?_map, List.getLast?_eq_getLast_of_ne_nil hin]
  simp only [Option.map_some, Option.getD_some, Int.ofNat_eq_natCast]
  omega

/-- no grid position between the first and the last point is missing -/
def Gapless (idx : List Int) : Prop := idx ≠ [] → idx.getLastD 0 + 1 ≤ (idx.length : Int)

/-- No `None` and no infinite or NaN constant enters the series: the request names a finite fill constant if it asks
for one, or there is no gap to fill. `imputeMode='fixed'` never hands its constant on (C30), so it is covered only
without gaps. -/
def FiniteFill (E : Env) (data : DataArg) (params : Params) : Prop :=
  (params "imputeMode" ≠ some (.str "fixed") ∧
      ∀ f, params "fixedValue" = some (.float f) → ∃ q : ℚ, f = .fin q) ∨
    ∀ hasTs hasValue rows idx, data = .frame hasTs hasValue rows → Positions E params hasTs rows idx → Gapless idx

theorem FiniteFill.set {E : Env} {data : DataArg} {p : Params} (h : FiniteFill E data p) {k : String} (v : PyVal)
    (hk : k ∉ ["imputeMode", "fixedValue", "granularity", "customInterval"]) : FiniteFill E data (p.set k v) := by
  simp only [List.mem_cons, List.not_mem_nil, or_false, not_or] at hk
  obtain ⟨h1, h2, h3, h4⟩ := hk
  unfold FiniteFill Positions requested at *
  rw [Params.set_ne _ _ (Ne.symm h1), Params.set_ne _ _ (Ne.symm h2), Params.set_ne _ _ (Ne.symm h3),
    Params.set_ne _ _ (Ne.symm h4)]
  exact h

theorem gapless_need {idx : List Int} {vs : List ℚ} {P : FillProc} (hne : idx ≠ [])
    (h : FillProc.init idx vs = .ok P) (hg : Gapless idx) : P.need = false := by
  obtain ⟨g, hidx, -⟩ := FillProc.init_good hne h
  have h1 := allCount_last hne h
  have h2 : idx.length = P.indices.length := by rw [hidx, List.length_map]
  have hg := hg hne
  rw [← Bool.not_eq_true, g.need]
  omega

theorem ofValue_fixed {s : String} (h : FillUpMode.ofValue s = some .fixed) : s = "fixed" := by
  unfold FillUpMode.ofValue at h
  repeat' split at h
  all_goals first
    | cases h; done
    | assumption

theorem presentKey_some {p : Params} {k : String} {v : PyVal} (h : presentKey p k = some v) : p k = some v := by
  unfold presentKey at h
  split at h <;> simp_all

theorem fill_constant {p : Params} {mode : Option FillUpMode} {fixed : Option PyFloat}
    (h : FillFacts p (mode, fixed)) (hf : p "imputeMode" ≠ some (.str "fixed") ∧
      ∀ f, p "fixedValue" = some (.float f) → ∃ q : ℚ, f = .fin q) :
    mode = some .fixed → ∃ q : ℚ, fixed = some (.fin q) := by
  intro hm
  subst hm
  rcases h with ⟨s, hs, h | h | ⟨m, h1, h2, h3, h4⟩⟩ | ⟨-, -, h⟩ | ⟨s, -, hs, h | ⟨m, h1, h2, h3⟩⟩
  · have := ofValue_fixed h.1
    subst this
    exact absurd (presentKey_some hs) hf.1
  · simp only [Prod.mk.injEq, true_and] at h
    exact ⟨0, h.2⟩
  · simp only [Prod.mk.injEq, Option.some.injEq] at h4
    exact absurd h4.1.symm h2
  · simp at h
  · obtain ⟨-, v, f, hv, hvf, h⟩ := h
    simp only [Prod.mk.injEq, true_and] at h
    subst h
    cases v <;> simp only [PyVal.asNumber?, Option.some.injEq, reduceCtorEq] at hvf
    · exact ⟨_, by rw [← hvf]⟩
    · exact ⟨_, by rw [← hvf]⟩
    · obtain ⟨q, hq⟩ := hf.2 _ hv
      exact ⟨q, by rw [← hvf, hq]⟩
  · simp only [Prod.mk.injEq, Option.some.injEq] at h3
    exact absurd h3.1.symm h2

theorem WF.splineLaws {E : Env} (hE : E.WF) : SplineLaws E.spline :=
  ⟨hE.spline_len, hE.spline_knot⟩

/-- an executed filling with a constant, if one is needed, leaves no hole -/
theorem filled_holeless {spline : SplineOracle} (hsp : SplineLaws spline) {P : FillProc} (hg : P.Good)
    {mode : FillUpMode} {fixed : Option ℚ} {period : Nat} {l : List (Option ℚ)} {tags : List Bool}
    (hc : mode = .fixed → P.need = true → fixed ≠ none)
    (hr : fillUpOnDemand spline P mode fixed period = .ok (some (l, tags))) :
    ∃ full : List ℚ, l = full.map some := by
  obtain ⟨hn, rfl, h⟩ := fill_cases hr
  rcases h with ⟨-, h⟩ | ⟨hm, h⟩ | ⟨-, rfl⟩ | ⟨-, h⟩
  · obtain ⟨full, a, -⟩ := fillLast_spec hg h
    exact ⟨full, a⟩
  · obtain ⟨a, b, d⟩ := fillConstant_spec hg h
    obtain ⟨c, rfl⟩ := Option.ne_none_iff_exists'.1 (hc hm hn)
    exact exists_values (by
      intro p hp
      by_cases hm : Missing P.obs p
      · exact ⟨c, d p (by omega) hm⟩
      · unfold Missing at hm
        push Not at hm
        obtain ⟨v, hv⟩ := hm
        exact ⟨v, b _ hv⟩)
  · exact ⟨_, rfl⟩
  · obtain ⟨full, a, -⟩ := fillAuto_spec hsp hg hn h
    exact ⟨full, a⟩

/-! ### control never leaves the model -/

def Modelled {α} (x : Except Stop α) : Prop := x ≠ .error .unmodelled

theorem modelled_lift {α} (x : Except PyErr α) : Modelled (lift x) := by
  unfold Modelled; cases x <;> simp [lift]

theorem modelled_ok {α} (a : α) : Modelled (.ok a) := by simp [Modelled]

theorem modelled_pure {α} (a : α) : Modelled (pure a) := by simp [Modelled, pure, Except.pure]

theorem modelled_err {α} (e : PyErr) : Modelled (.error (.err e) : Except Stop α) := by simp [Modelled]

theorem modelled_bind {α β} {x : Except Stop α} {f : α → Except Stop β} (hx : Modelled x)
    (hf : ∀ a, x = .ok a → Modelled (f a)) : Modelled (x >>= f) := by
  unfold Modelled at *
  cases x with
  | error e => simpa [Bind.bind, Except.bind] using hx
  | ok a => simpa [Bind.bind, Except.bind] using hf a rfl

theorem modelled_map {α β} {x : Except Stop α} {f : α → β} (hx : Modelled x) : Modelled (x.map f) := by
  unfold Modelled at *
  cases x with
  | error e => simpa [Except.map] using hx
  | ok a => simp [Except.map]

/-- what the run needs of a configured model -/
structure Model.Sound (M : Model) : Prop where
  good : M.fill.Good
  constant : M.mode = .fixed → M.fill.need = true → ∃ q : ℚ, M.fixed = some (.fin q)

theorem filled_modelled {E : Env} (hE : E.WF) {M : Model} (hM : M.Sound) {mode : FillUpMode}
    (hmode : mode = .fixed → M.mode = .fixed) (period : Nat) : Modelled (M.filled E mode period) := by
  have hc : mode = .fixed → M.fill.need = true → M.fixed.bind finite? ≠ none := by
    intro h hn
    obtain ⟨q, hq⟩ := hM.constant (hmode h) hn
    rw [hq]
    simp [finite?]
  unfold Model.filled
  rw [if_neg (fun h => hc h.1 h.2.1 h.2.2)]
  refine modelled_bind (modelled_lift _) ?_
  intro r hr
  split
  · exact modelled_pure _
  · obtain ⟨full, rfl⟩ := filled_holeless (WF.splineLaws hE) hM.good hc (lift_ok.1 hr)
    rw [mapM_id_map]
    exact modelled_pure _

theorem detectPeriod_modelled {E : Env} (hE : E.WF) {M : Model} (hM : M.Sound) (skip : Bool) :
    Modelled (M.detectPeriod E skip) := by
  unfold Model.detectPeriod
  rw [if_neg fun hc => by
    obtain ⟨q, hq⟩ := hM.constant hc.1 hc.2.1
    rw [hq] at hc
    exact nomatch hc.2.2]
  dsimp only
  split
  · refine modelled_bind (filled_modelled hE hM ?_ _) fun _ _ => modelled_lift _
    split
    · rintro ⟨⟩
    · exact id
  · exact modelled_bind (modelled_pure _) fun _ _ => modelled_lift _

theorem select_modelled {E : Env} (hE : E.WF) {M : Model} (hM : M.Sound) (period : Option Nat) (last : Bool) :
    Modelled (M.select E period last) := by
  unfold Model.select
  refine modelled_bind ?_ ?_
  · unfold Model.usedPeriod
    split
    · exact modelled_ok _
    · split
      · exact modelled_ok _
      · exact modelled_map (detectPeriod_modelled hE hM _)
  · rintro ⟨p, src⟩ -
    refine modelled_bind ?_ ?_
    · unfold Model.usedSeries
      split
      · exact modelled_err _
      · split
        · exact filled_modelled hE hM id _
        · exact modelled_ok _
    · rintro full -
      dsimp only
      split
      · refine modelled_bind (modelled_lift _) fun _ _ => modelled_pure _
      · exact modelled_err _

theorem detect_modelled {E : Env} (hE : E.WF) {M : Model} (hM : M.Sound) (det : Option (List (String × PyVal)))
    (period : Option Nat) (last : Bool) : Modelled (M.detect E det period last) := by
  unfold Model.detect
  dsimp only
  split
  · exact modelled_err _
  · refine modelled_bind (select_modelled hE hM _ _) ?_
    rintro ⟨rows, p, model, src⟩ -
    refine modelled_bind ?_ fun _ _ => modelled_pure _
    unfold Model.spectrum
    repeat' split
    all_goals first
      | exact modelled_pure _
      | exact modelled_bind (detectPeriod_modelled hE hM _) fun _ _ => modelled_pure _

theorem getIndices_len {g : Granularity} {ci : Option Int} {ts : List Stamp} {idx : List Int}
    (h : getIndices g ci ts = .ok (.ok idx)) : idx.length = ts.length := by
  have key : ∀ {l : List ℚ} {i : Nat}, (Except.ok (intLoop l i) : Except PyErr IdxResult) = .ok (.ok idx) →
      idx.length = l.length := by
    intro l i hl
    simp only [Except.ok.injEq] at hl
    rw [intLoop_ok hl, List.length_map]
  unfold getIndices at h
  dsimp only at h
  split at h
  · simp only [Except.ok.injEq, IdxResult.ok.injEq] at h
    subst h
    rfl
  · split at h
    · split at h
      · cases h
      · rw [key h, List.length_map]
    · split at h
      · cases h
      · rw [key h, List.length_map, List.length_map]
    · split at h
      · cases h
      · rw [key h, List.length_map, List.length_map]
    · split at h
      · cases h
      · rw [key h, List.length_map]

theorem allStamps_len {l : List (Option Stamp)} {ts : List Stamp} (h : allStamps l = some ts) :
    ts.length = l.length := by
  induction l generalizing ts with
  | nil => simp [allStamps] at h; subst h; rfl
  | cons o t ih =>
    cases o with
    | none => simp [allStamps] at h
    | some a =>
      simp only [allStamps, Option.map_eq_some_iff] at h
      obtain ⟨l', hl, rfl⟩ := h
      simp [ih hl]

theorem mapM_except_length {ε α β} {f : α → Except ε β} {l : List α} {r : List β} (h : l.mapM f = .ok r) :
    r.length = l.length := by
  induction l generalizing r with
  | nil => rw [List.mapM_nil] at h; cases h; rfl
  | cons a t ih =>
    rw [List.mapM_cons] at h
    obtain ⟨b, -, h⟩ := ebind_ok.1 h
    obtain ⟨r', hr, h⟩ := ebind_ok.1 h
    rw [← epure_ok.1 h]
    simp [ih hr]

theorem cellValues_len {E : Env} {hasValue : Bool} {rows : List (PyVal × PyVal)} {vs : List PyFloat}
    (h : cellValues E hasValue rows = .ok vs) : vs.length = rows.length := by
  unfold cellValues at h
  split at h
  · exact mapM_except_length h
  · split at h
    · rename_i hz
      cases h
      rw [hz]; rfl
    · cases h

theorem validated_len {E : Env} {hasTs hasValue : Bool} {rows : List (PyVal × PyVal)} {g : Granularity}
    {interval : Option Int} {vs : List PyFloat} {idx : List Int} (hE : E.WF)
    (hv : Validated E hasTs hasValue rows g interval vs idx) :
    vs.length = rows.length ∧ idx.length = rows.length := by
  have h1 := cellValues_len hv.values
  refine ⟨h1, ?_⟩
  by_cases hg : g = .none
  · rw [hv.plain hg]
    simp [h1]
  · obtain ⟨-, ots, ts, ha, -, hb, hc⟩ := hv.stamps hg
    rw [getIndices_len hc, allStamps_len hb, hE.toDatetime_len _ _ ha, List.length_map]

/-- the rows that remain are those of the observations -/
theorem dropFilled_values {obs : List (Nat × ℚ)} {n : Nat} {full : List ℚ} {tags : List Bool} {rows : List Row}
    (hg : Gapped obs n) (hl : full.length = n) (hk : ∀ a ∈ obs, full[a.1]? = some a.2) (ht : Tagged obs n tags)
    (hv : rows.map (·.value) = full) : (dropFilled rows tags).map (·.value) = obs.map (·.2) := by
  have hlen : rows.length = n := by rw [← hl, ← hv, List.length_map]
  have key : (((rows.zipIdx).filter fun x => !(tags.getD x.2 false)).map fun x => (x.2, x.1.value)) = obs := by
    refine List.Pairwise.eq_of_mem_iff (r := fun a b : Nat × ℚ => a.1 < b.1) ?_ hg.ascending ?_
    · rw [List.pairwise_map]
      refine List.Pairwise.filter _ ?_
      rw [List.pairwise_iff_getElem]
      intro i j hi hj hij
      simpa using hij
    · rintro ⟨p, v⟩
      simp only [List.mem_map, List.mem_filter, Bool.not_eq_true', Prod.mk.injEq, Prod.exists]
      constructor
      · rintro ⟨r, q, ⟨hm, htag⟩, rfl, rfl⟩
        have hq := List.mem_zipIdx hm
        simp only [Nat.zero_add, Nat.sub_zero] at hq
        have hqn : q < n := by omega
        have hnm : ¬ Missing obs q := by
          intro hmiss
          have := (ht.2 q hqn).2 hmiss
          rw [List.getD_eq_getElem?_getD, this] at htag
          simp at htag
        unfold Missing at hnm
        push Not at hnm
        obtain ⟨w, hw⟩ := hnm
        have e1 := hk _ hw
        rw [← hv, List.getElem?_map] at e1
        have e2 : rows[q]? = some r := by
          rw [List.getElem?_eq_getElem (by omega)]
          exact congrArg some hq.2.2.symm
        rw [e2] at e1
        simp only [Option.map_some, Option.some.injEq] at e1
        rw [e1]
        exact hw
      · intro hm
        have hpn := hg.inside _ hm
        simp only at hpn
        have hp : p < rows.length := by omega
        refine ⟨rows[p], p, ⟨?_, ?_⟩, rfl, ?_⟩
        · rw [List.mem_iff_getElem]
          exact ⟨p, by simpa using hp, by simp⟩
        · have : tags[p]? ≠ some true := by
            intro e
            exact (ht.2 p hpn).1 e v hm
          have hpt : p < tags.length := by rw [ht.1]; exact hpn
          rw [List.getElem?_eq_getElem hpt] at this
          rw [List.getD_eq_getElem?_getD, List.getElem?_eq_getElem hpt]
          simpa using this
        · have e1 := hk _ hm
          simp only at e1
          rw [← hv, List.getElem?_map, List.getElem?_eq_getElem hp] at e1
          simpa using e1
  have := congrArg (List.map Prod.snd) key
  rw [← this]
  simp [dropFilled, List.map_map, Function.comp_def]

theorem mem_dropFilled {rows : List Row} {tags : List Bool} {r : Row} (h : r ∈ dropFilled rows tags) : r ∈ rows := by
  unfold dropFilled at h
  obtain ⟨⟨r', i⟩, hm, rfl⟩ := List.mem_map.1 h
  have := (List.mem_filter.1 hm).1
  have := List.mem_zipIdx this
  rw [this.2.2]
  exact List.getElem_mem _

/-- the frame after filled points have been dropped -/
theorem frameOk_selected {E : Env} (hE : E.WF) {M : Model} {asked : Option Nat} {last : Bool} {rows : List Row}
    {p : Nat} {model : ModelType} {full : Option (List ℚ × List Bool)} {ratio : ℚ} {rows0 : List Row}
    {idx : List Int} (hne : idx ≠ []) (hinit : FillProc.init idx M.values = .ok M.fill)
    (hn : 2 ≤ M.values.length) (hs : Selected E M asked last rows p model full ratio rows0) :
    FrameOk M.values (M.needTrend = true) (last = false ∨ SrRegular E) rows ∧
      FrameOk ((full.map (·.1)).getD M.values) (M.needTrend = true) (last = false ∨ SrRegular E) rows0 ∧
      M.values.length ≤ ((full.map (·.1)).getD M.values).length := by
  obtain ⟨hgood, hidx, hvals⟩ := FillProc.init_good hne hinit
  have hout := hs.out
  have hrun := hs.run
  cases full with
  | none =>
    simp only at hout
    subst hout
    exact ⟨frameOk_run hE hn hrun, frameOk_run hE hn hrun, le_rfl⟩
  | some ft =>
    obtain ⟨l, tags⟩ := ft
    simp only at hout
    simp only [Option.map_some, Option.getD_some] at hrun ⊢
    have hfull : M.filled E M.mode p = .ok (some (l, tags)) := by
      rcases hs.fills with ⟨-, h⟩ | ⟨-, h⟩
      · exact h
      · cases h
    rcases filled_ok hfull with ⟨h, -⟩ | ⟨l', tags', h, hod⟩
    · cases h
    · simp only [Option.some.injEq, Prod.mk.injEq] at h
      obtain ⟨rfl, rfl⟩ := h
      obtain ⟨n, hg, hlen, hkeep, htag⟩ := C25_imputation_keeps_observed (WF.splineLaws hE) hne hinit hod
      rw [List.length_map] at hlen
      have hobs : (observations idx M.values).map (·.2) = M.values := by
        unfold observations
        rw [← List.unzip_snd, List.unzip_zip (by
          rw [List.length_map]
          have := hgood.len
          rw [hvals] at this
          rw [hidx, List.length_map, this])]
      have hle : M.values.length ≤ l.length := by
        rw [← hobs, List.length_map, hlen]
        have hsub : (observations idx M.values).map (·.1) ⊆ List.range n := by
          intro x hx
          obtain ⟨a, ha, rfl⟩ := List.mem_map.1 hx
          exact List.mem_range.2 (hg.inside a ha)
        have hnd : ((observations idx M.values).map (·.1)).Nodup := by
          have := (List.pairwise_map (f := fun x : Nat × ℚ => x.1) (R := (· < ·))).2 hg.ascending
          exact this.imp (fun h => Nat.ne_of_lt h)
        have := (hnd.subperm hsub).length_le
        simpa using this
      have hf0 := frameOk_run hE (by omega) hrun
      subst hout
      refine ⟨⟨?_, ?_, ?_, ?_, ?_⟩, hf0, hle⟩
      · rw [dropFilled_values hg hlen (fun a ha => getElem?_map_some.1 (hkeep a ha)) htag hf0.values, hobs]
      · exact fun r hr => hf0.flags r (mem_dropFilled hr)
      · exact fun hd r hr => hf0.direction hd r (mem_dropFilled hr)
      · exact fun r hr => hf0.weak r (mem_dropFilled hr)
      · exact fun r hr => hf0.trendy r (mem_dropFilled hr)

/-! ### the trace of an answer -/

/-- One successful call of `predict`, from the request to the answer. -/
structure Trace (E : Env) (d : Detector) (data : DataArg) (params : Params) (items : List Item) where
  hasTs : Bool
  hasValue : Bool
  rows : List (PyVal × PyVal)
  mp : ModelParams
  after : Params
  mode : PyVal
  idx : List Int
  M : Model
  frame0 : List Row
  period : Nat
  model : ModelType
  full : Option (List ℚ × List Bool)
  ratio : ℚ
  raw : List Row
  isFrame : data = .frame hasTs hasValue rows
  parsed : Parsed E hasTs hasValue rows params after mp
  isMode : currentMode d.mode after = some mode
  validated : Validated E hasTs hasValue rows mp.granularity mp.interval (M.values.map .fin) idx
  configured : Configured E (M.values.map .fin) mp M
  fillInit : FillProc.init idx M.values = .ok M.fill
  selected : Selected E M (paramPeriod after) (isLatest mode) frame0 period model full ratio raw
  finished : finish mode (rowStamps hasTs rows) (frame0.map clearNear) period model (paramSens after)
    (paramBoundary after) mp.granularity = .ok items

theorem parsed_positions {E : Env} (hE : E.WF) {hasTs hasValue : Bool} {rows : List (PyVal × PyVal)}
    {params after : Params} {mp : ModelParams} {vs : List PyFloat} {idx : List Int}
    (hp : Parsed E hasTs hasValue rows params after mp)
    (hv : Validated E hasTs hasValue rows mp.granularity mp.interval vs idx) :
    Positions E params hasTs rows idx := by
  by_cases hg : mp.granularity = .none
  · left
    have h1 := hv.plain hg
    refine ⟨?_, ?_⟩
    · rcases hp.gran with ⟨h, -⟩ | ⟨s, h, hs⟩
      · exact .inl h
      · rw [hg] at hs
        right
        unfold requested
        rw [h, ofName_mem hs]
    · rw [h1, (validated_len hE hv).1]
  · right
    obtain ⟨ht, ots, ts, h1, h2, h3, h4⟩ := hv.stamps hg
    refine ⟨mp.granularity, mp.interval, ts, ?_, hg, ht, ?_, by rw [h1, allStamps_eq h3], h4⟩
    · rcases hp.gran with ⟨-, h⟩ | ⟨s, h, hs⟩
      · exact absurd h hg
      · unfold requested
        rw [h, ofName_mem hs]
    · rcases hp.interval with h | ⟨v, i, a, b, -, e⟩
      · exact .inl h
      · exact .inr ⟨v, i, a, asInt_isInt b, e⟩

theorem finiteFill_sound {E : Env} (hE : E.WF) {hasTs hasValue : Bool} {rows : List (PyVal × PyVal)} {p p' : Params}
    {mp : ModelParams} (hp : Parsed E hasTs hasValue rows p p' mp)
    (hf : FiniteFill E (.frame hasTs hasValue rows) p) {vs vs' : List PyFloat} {M : Model} (hc : Configured E vs mp M)
    {idx : List Int} (hv : Validated E hasTs hasValue rows mp.granularity mp.interval vs' idx) (hne : idx ≠ [])
    {l : List ℚ} (hi : FillProc.init idx l = .ok M.fill) : M.Sound := by
  refine ⟨(FillProc.init_good hne hi).1, ?_⟩
  intro hm hn
  rcases hf with hf | hf
  · rw [hc.mode] at hm
    rw [hc.fixed]
    refine fill_constant hp.fill hf ?_
    cases hmode : mp.fillMode with
    | none => rw [hmode] at hm; simp at hm
    | some m => rw [hmode] at hm; simpa using hm
  · rw [gapless_need hne hi (hf _ _ _ _ rfl (parsed_positions hE hp hv))] at hn
    cases hn

/-- a validated request with a finite fill constant never leaves the model -/
theorem run_modelled {E : Env} (hE : E.WF) {hasTs hasValue : Bool} {rows : List (PyVal × PyVal)} {p p' : Params}
    {mp : ModelParams} (hp : Parsed E hasTs hasValue rows p p' mp)
    (hf : FiniteFill E (.frame hasTs hasValue rows) p) {vs : List PyFloat}
    {idx : List Int} (hv : Validated E hasTs hasValue rows mp.granularity mp.interval vs idx)
    (hi : mp.indices = PyVal.ofIntList idx) (m : PyVal) :
    Modelled (runModel E m hasTs hasValue rows mp p') := by
  obtain ⟨hl1, hl2⟩ := validated_len hE hv
  have hne : idx ≠ [] := by
    intro e
    have := hv.lo
    rw [e] at hl2
    simp at hl2
    omega
  obtain ⟨l, hl, rfl⟩ := mapM_finite fun v hv' => (hv.toValuesOk.finite v hv').imp fun _ h => h.1
  unfold runModel
  rw [hv.values]
  refine modelled_bind (modelled_lift _) ?_
  intro vs' hvs'
  have := lift_ok.1 hvs'
  cases this
  refine modelled_bind ?_ ?_
  · unfold Model.init
    rw [hl, hi]
    unfold PyVal.ofIntList
    simp only [PyVal.asIntList?_map]
    exact modelled_bind (modelled_lift _) fun _ _ => modelled_pure _
  · intro M hM
    have hc := modelInit_ok hM
    obtain ⟨l', idx', h1, h2, h3⟩ := hc.fill
    have : idx' = idx := by
      rw [hi] at h1
      unfold PyVal.ofIntList at h1
      cases h1
      rw [PyVal.asIntList?_map] at h2
      simpa using h2.symm
    subst this
    have hM' := finiteFill_sound hE hp hf hc hv hne h3
    exact modelled_bind (detect_modelled hE hM' _ _ _) fun _ _ => modelled_lift _

/-- An answer to a request with a finite fill constant has a trace. -/
theorem predict_trace {E : Env} (hE : E.WF) {W : Wild} {d : Detector} {data : DataArg} {params : Params}
    {items : List Item} (hno : params "indices" = none) (hf : FiniteFill E data params)
    (h : (predict E W d data params).outcome = .ok items) : Nonempty (Trace E d data params items) := by
  obtain ⟨hasTs, hasValue, rows, mp, p', m, vs, idx, hd, hp, hm, hv, hi, hr⟩ := predict_validated hno h
  obtain ⟨hl1, hl2⟩ := validated_len hE hv
  have hne : idx ≠ [] := by
    intro e
    have := hv.lo
    rw [e] at hl2
    simp at hl2
    omega
  obtain ⟨l, hl, rfl⟩ := mapM_finite fun v hv' => (hv.toValuesOk.finite v hv').imp fun _ h => h.1
  have hrun : runModel E m hasTs hasValue rows mp p' = .ok items := by
    rcases hr with hr | ⟨hr, -⟩
    · exact hr
    · exact absurd hr (run_modelled hE hp (hd ▸ hf) hv hi m)
  obtain ⟨vs', M, rs, per, model, h1, h2, h3, h4⟩ := runModel_ok hrun
  rw [hv.values] at h1
  cases h1
  have hc := modelInit_ok h2
  obtain ⟨l', idx', i1, i2, i3⟩ := hc.fill
  have : idx' = idx := by
    rw [hi] at i1
    unfold PyVal.ofIntList at i1
    cases i1
    rw [PyVal.asIntList?_map] at i2
    simpa using i2.symm
  subst this
  obtain ⟨frame0, src, h5, rfl⟩ := detect_ok h3
  obtain ⟨full, ratio, raw, h6⟩ := select_ok h5
  have hval := hc.values
  rw [hval] at hv hc
  exact ⟨⟨hasTs, hasValue, rows, mp, p', m, idx', M, frame0, per, model, full, ratio, raw, hd, hp, hm, hv, hc, i3,
    h6, h4⟩⟩

theorem Trace.len {E : Env} (hE : E.WF) {d : Detector} {data : DataArg} {params : Params} {items : List Item}
    (T : Trace E d data params items) :
    12 ≤ T.M.values.length ∧ T.M.values.length = T.rows.length ∧ T.idx.length = T.rows.length ∧ T.idx ≠ [] := by
  obtain ⟨h1, h2⟩ := validated_len hE T.validated
  rw [List.length_map] at h1
  have := T.validated.lo
  refine ⟨by omega, h1, h2, ?_⟩
  intro e
  rw [e] at h2
  simp at h2
  omega

/-- the frame behind an answer: one row per input row, in order, with consistent flags -/
theorem Trace.frameOk {E : Env} (hE : E.WF) {d : Detector} {data : DataArg} {params : Params} {items : List Item}
    (T : Trace E d data params items) :
    FrameOk T.M.values (T.M.needTrend = true) (isLatest T.mode = false ∨ SrRegular E) T.frame0 := by
  obtain ⟨h1, -, -, h4⟩ := T.len hE
  exact (frameOk_selected hE h4 T.fillInit (by omega) T.selected).1

end Verif
