import Verif.Props.Trace

/-!
# Timestamps matter only through their positions

Two requests with the same values whose timestamps take the same positions on the grid.
-/

namespace Verif

open Spec

/-- an answer without the label of its row -/
def Item.untimed (it : Item) : Item := { it with timestamp := .none }

/-- an outcome without the labels of the rows -/
def untimedOutcome (r : CallResult) : Except PyErr (List Item) := r.outcome.map (·.map Item.untimed)

namespace PM

/-- two bodies started on the same dict end alike: the same dict, related results or the same abnormal end -/
def Alike {α β} (R : α → β → Prop) (x : PM α) (y : PM β) (p : Params) : Prop :=
  (∃ p' a b, x p = (p', .ok a) ∧ y p = (p', .ok b) ∧ R a b) ∨
  (∃ p' c, x p = (p', .early c) ∧ y p = (p', .early c)) ∨
  ∃ p' e c, x p = (p', .err e c) ∧ y p = (p', .err e c)

theorem alike_refl {α} (x : PM α) (p : Params) : Alike Eq x x p := by
  rcases h : x p with ⟨p', r⟩
  cases r with
  | ok a => exact .inl ⟨p', a, a, h, h, rfl⟩
  | early c => exact .inr (.inl ⟨p', c, h, h⟩)
  | err e c => exact .inr (.inr ⟨p', e, c, h, h⟩)

theorem alike_bind {α α' β β'} {R : α → α' → Prop} {S : β → β' → Prop} {x : PM α} {x' : PM α'} {f : α → PM β}
    {f' : α' → PM β'} {p : Params} (h : Alike R x x' p)
    (hf : ∀ p' a b, x.Returns p p' a → R a b → Alike S (f a) (f' b) p') : Alike S (x >>= f) (x' >>= f') p := by
  have e1 : (x >>= f) p = PM.bind x f p := rfl
  have e2 : (x' >>= f') p = PM.bind x' f' p := rfl
  unfold Alike
  rw [e1, e2]
  unfold PM.bind
  rcases h with ⟨p', a, b, h1, h2, h3⟩ | ⟨p', c, h1, h2⟩ | ⟨p', e, c, h1, h2⟩
  · rw [h1, h2]
    exact hf p' a b h1 h3
  · rw [h1, h2]
    exact .inr (.inl ⟨p', c, rfl, rfl⟩)
  · rw [h1, h2]
    exact .inr (.inr ⟨p', e, c, rfl, rfl⟩)

theorem alike_step {α β β'} {S : β → β' → Prop} {x : PM α} {f : α → PM β} {f' : α → PM β'} {p : Params}
    (hf : ∀ p' a, x.Returns p p' a → Alike S (f a) (f' a) p') : Alike S (x >>= f) (x >>= f') p :=
  alike_bind (alike_refl x p) fun p' a _ h e => e ▸ hf p' a h

end PM

/-- the same parse result up to the frame -/
def SameParse (ht ht' hv : Bool) (rows rows' : List (PyVal × PyVal)) (r r' : ParseResult) : Prop :=
  r.hasTs = ht ∧ r'.hasTs = ht' ∧ r.hasValue = hv ∧ r'.hasValue = hv ∧ r.rows = rows ∧ r'.rows = rows' ∧
    r.mp = r'.mp ∧ r.code = r'.code

/-- the granularity and the multiple a request may ask for -/
def Asked (params : Params) (g : Granularity) : Prop :=
  (params "granularity" = none ∧ g = .none) ∨ requested params g

theorem parseArg_alike {E : Env} {ht ht' hv : Bool} {rows rows' : List (PyVal × PyVal)} {params : Params}
    (hl : rows.length = rows'.length)
    (hs : ∀ g ci, Asked params g → seriesValidator E ht hv rows g ci = seriesValidator E ht' hv rows' g ci) :
    PM.Alike (SameParse ht ht' hv rows rows') (parseArg E (.frame ht hv rows)) (parseArg E (.frame ht' hv rows'))
      params := by
  unfold parseArg
  simp only [← hl]
  split
  · exact .inr (.inl ⟨params, none, rfl, rfl⟩)
  · refine PM.alike_step fun p1 g hg => ?_
    have hg : Asked params g := by
      rcases (parseGranularity_ok hg).2 with h | ⟨s, h, hs⟩
      · exact .inl h
      · right
        unfold requested
        rw [h, ofName_mem hs]
    refine PM.alike_step fun p2 ci _ => ?_
    refine PM.alike_step fun p3 _ _ => ?_
    refine PM.alike_step fun p4 _ _ => ?_
    refine PM.alike_step fun p5 _ _ => ?_
    refine PM.alike_step fun p6 _ _ => ?_
    refine PM.alike_step fun p7 _ _ => ?_
    refine PM.alike_step fun p8 _ _ => ?_
    refine PM.alike_step fun p9 _ _ => ?_
    refine PM.alike_step fun p10 _ _ => ?_
    refine PM.alike_step fun p11 _ _ => ?_
    refine PM.alike_step fun p12 _ _ => ?_
    refine PM.alike_step fun p13 _ _ => ?_
    have e : parseIndices E ht hv rows g ci = parseIndices E ht' hv rows' g ci := by
      unfold parseIndices
      rw [hs g ci hg]
    rw [e]
    refine PM.alike_step fun p14 i _ => ?_
    exact .inl ⟨p14, _, _, rfl, rfl, rfl, rfl, rfl, rfl, rfl, rfl, rfl, rfl⟩

theorem cellValues_cells (E : Env) (hv : Bool) {rows rows' : List (PyVal × PyVal)}
    (h : rows.map (·.2) = rows'.map (·.2)) : cellValues E hv rows = cellValues E hv rows' := by
  have hl : rows.length = rows'.length := by simpa using congrArg List.length h
  unfold cellValues
  rw [hl]
  have : ∀ l : List (PyVal × PyVal), l.mapM (fun r => cellFloat E r.2) = (l.map (·.2)).mapM (cellFloat E) := by
    intro l
    induction l with
    | nil => rfl
    | cons a t ih => rw [List.mapM_cons, List.map_cons, List.mapM_cons, ih]
  rw [this, this, h]

theorem rowStamps_length (ht : Bool) (rows : List (PyVal × PyVal)) : (rowStamps ht rows).length = rows.length := by
  unfold rowStamps
  split <;> simp

theorem zipWith_untimed (period : Nat) (sw : Option Nat) : ∀ (s s' : List PyVal) (outs : List Out), s.length = s'.length →
    (List.zipWith (fun ts o => mkItem ts o period sw) s outs).map Item.untimed =
      (List.zipWith (fun ts o => mkItem ts o period sw) s' outs).map Item.untimed
  | [], [], _, _ => rfl
  | _ :: _, _ :: _, [], _ => rfl
  | a :: s, b :: s', o :: outs, h => by
    simp only [List.zipWith_cons_cons, List.map_cons]
    rw [zipWith_untimed period sw s s' outs (by simpa using h)]
    rfl

theorem finish_untimed (mode : PyVal) {s s' : List PyVal} (rows : List Row) (period : Nat) (model : ModelType)
    (sens : Int) (bv : BoundaryVersion) (g : Granularity) (h : s.length = s'.length) :
    (finish mode s rows period model sens bv g).map (·.map Item.untimed) =
      (finish mode s' rows period model sens bv g).map (·.map Item.untimed) := by
  unfold finish
  rw [h]
  split
  · rfl
  · split
    · cases getMargins rows sens model bv with
      | error e => rfl
      | ok outs =>
        exact congrArg Except.ok (zipWith_untimed period none s s' outs h)
    · cases getMarginsLast rows sens model bv with
      | error e => rfl
      | ok o =>
        show Except.map _ (match s.getLast? with | some ts => _ | none => _) =
          Except.map _ (match s'.getLast? with | some ts => _ | none => _)
        rcases List.eq_nil_or_concat s with rfl | ⟨l, a, rfl⟩
        · obtain rfl : s' = [] := List.length_eq_zero_iff.1 h.symm
          rfl
        · rcases List.eq_nil_or_concat s' with rfl | ⟨l', a', rfl⟩
          · simp at h
          · simp [List.getLast?_append]
            rfl

theorem map_bind_congr {ε α β γ} (x : Except ε α) {f f' : α → Except ε β} {F : β → γ}
    (h : ∀ a, (f a).map F = (f' a).map F) : (x >>= f).map F = (x >>= f').map F := by
  cases x with
  | error e => rfl
  | ok a => exact h a

theorem runModel_untimed (E : Env) (mode : PyVal) {ht ht' hv : Bool} {rows rows' : List (PyVal × PyVal)}
    (mp : ModelParams) (p : Params) (h : rows.map (·.2) = rows'.map (·.2)) :
    (runModel E mode ht hv rows mp p).map (·.map Item.untimed) =
      (runModel E mode ht' hv rows' mp p).map (·.map Item.untimed) := by
  have hl : rows.length = rows'.length := by simpa using congrArg List.length h
  have hf := fun rs per model => finish_untimed mode (s := rowStamps ht rows) (s' := rowStamps ht' rows') rs per model
    (paramSens p) (paramBoundary p) mp.granularity (by rw [rowStamps_length, rowStamps_length, hl])
  unfold runModel
  rw [cellValues_cells E hv h]
  refine map_bind_congr _ fun vs => map_bind_congr _ fun M => map_bind_congr _ fun x => ?_
  obtain ⟨rs, per, model⟩ := x
  have := hf rs per model
  simp only
  cases h1 : finish mode (rowStamps ht rows) rs per model (paramSens p) (paramBoundary p) mp.granularity <;>
    cases h2 : finish mode (rowStamps ht' rows') rs per model (paramSens p) (paramBoundary p) mp.granularity <;>
    rw [h1, h2] at this <;> simp [Except.map, lift] at this ⊢ <;> exact this

/-- A parsed request without a stored position list runs inside the model. -/
theorem parsed_within {E : Env} (hE : E.WF) {ht hv : Bool} {rows : List (PyVal × PyVal)} {params p' : Params}
    {mp : ModelParams} (hp : Parsed E ht hv rows params p' mp) (hno : params "indices" = none)
    (hf : FiniteFill E (.frame ht hv rows) params) (m : PyVal) : Modelled (runModel E m ht hv rows mp p') := by
  rcases hp.indices with hi | ⟨hi, vs, hvs⟩ | ⟨vs, idx, hval, hi⟩
  · rw [hno] at hi; cases hi
  · have : runModel E m ht hv rows mp p' = .error (.err .valueError) := by
      obtain ⟨l, hl, -⟩ := mapM_finite fun v hv => (hvs.finite v hv).imp fun _ h => h.1
      unfold runModel
      rw [hvs.values]
      simp [lift, Bind.bind, Except.bind, Model.init, hl, hi]
    rw [this]
    simp [Modelled]
  · exact run_modelled hE hp hf hval hi m

/-- same values and a validator that cannot tell the frames apart: the same answer, the same detector and the same dict
afterwards -/
theorem predict_untimed {E : Env} (hE : E.WF) (W : Wild) (d : Detector) {ht ht' hv : Bool}
    {rows rows' : List (PyVal × PyVal)} {params : Params} (hno : params "indices" = none)
    (hf : FiniteFill E (.frame ht hv rows) params) (hc : rows.map (·.2) = rows'.map (·.2))
    (hs : ∀ g ci, Asked params g → seriesValidator E ht hv rows g ci = seriesValidator E ht' hv rows' g ci) :
    untimedOutcome (predict E W d (.frame ht hv rows) params) =
        untimedOutcome (predict E W d (.frame ht' hv rows') params) ∧
      (predict E W d (.frame ht hv rows) params).detector = (predict E W d (.frame ht' hv rows') params).detector ∧
      (predict E W d (.frame ht hv rows) params).params = (predict E W d (.frame ht' hv rows') params).params := by
  have hl : rows.length = rows'.length := by simpa using congrArg List.length hc
  unfold untimedOutcome predict
  rcases parseArg_alike (E := E) (params := params) hl hs with ⟨p', r, r', h1, h2, h3⟩ | ⟨p', c, h1, h2⟩ |
    ⟨p', e, c, h1, h2⟩
  · rw [h1, h2]
    obtain ⟨-, hp⟩ := parseArg_ok h1
    obtain ⟨rfl, rfl, rfl, e4, rfl, rfl, e7, e8⟩ := h3
    simp only
    unfold afterParse
    rw [e8]
    cases hm : currentMode (d.update (some r'.code)).mode p' with
    | none => exact ⟨rfl, rfl, rfl⟩
    | some m =>
      simp only
      have hmod := parsed_within hE hp hno hf m
      have hr := runModel_untimed E m (ht := r.hasTs) (ht' := r'.hasTs) (hv := r.hasValue) r.mp p' hc
      rw [← e7, e4]
      cases h1 : runModel E m r.hasTs r.hasValue r.rows r.mp p' with
      | ok items =>
        cases h2 : runModel E m r'.hasTs r.hasValue r'.rows r.mp p' with
        | ok items' =>
          rw [h1, h2] at hr
          simp only [Except.map, Except.ok.injEq] at hr ⊢
          exact ⟨hr, trivial, trivial⟩
        | error e => rw [h1, h2] at hr; cases hr
      | error s =>
        cases h2 : runModel E m r'.hasTs r.hasValue r'.rows r.mp p' with
        | ok items' => rw [h1, h2] at hr; cases hr
        | error s' =>
          rw [h1, h2] at hr
          simp only [Except.map, Except.error.injEq] at hr
          subst hr
          cases s with
          | err e => exact ⟨rfl, rfl, rfl⟩
          | unmodelled => exact absurd h1 hmod
  · rw [h1, h2]
    exact ⟨rfl, rfl, rfl⟩
  · rw [h1, h2]
    exact ⟨rfl, rfl, rfl⟩

/-! ## The property -/

namespace Spec

/-- the same instants, all moved by `c` seconds; a missing one stays missing -/
inductive Moved (c : Int) : Option Stamp → Option Stamp → Prop
  | missing : Moved c none none
  | moved {a b : Stamp} (h : b.ns = a.ns + c * 1000000000) : Moved c (some a) (some b)

end Spec

theorem validateValues_plain {E : Env} (ht ht' hv : Bool) {rows rows' : List (PyVal × PyVal)}
    (h : rows.map (·.2) = rows'.map (·.2)) : validateValues E ht hv rows false = validateValues E ht' hv rows' false := by
  have hl : rows.length = rows'.length := by simpa using congrArg List.length h
  unfold validateValues
  rw [hl, cellValues_cells E hv h]
  rfl

theorem seriesValidator_plain {E : Env} (ht ht' hv : Bool) {rows rows' : List (PyVal × PyVal)} (ci : Option Int)
    (h : rows.map (·.2) = rows'.map (·.2)) :
    seriesValidator E ht hv rows .none ci = seriesValidator E ht' hv rows' .none ci := by
  unfold seriesValidator
  rw [show decide (Granularity.none ≠ Granularity.none) = false by decide, validateValues_plain ht ht' hv h]

theorem ascendingCode_moved {c : Int} {l l' : List (Option Stamp)} (h : List.Forall₂ (Moved c) l l') :
    ascendingCode l = ascendingCode l' := by
  induction h with
  | nil => rfl
  | cons h1 h2 ih =>
    cases h1 with
    | missing => exact ih
    | moved e1 =>
      cases h2 with
      | nil => rfl
      | cons h3 h4 =>
        cases h3 with
        | missing => exact ih
        | moved e2 =>
          unfold ascendingCode
          rw [ih, e1, e2]
          simp only [add_lt_add_iff_right, add_left_inj]

theorem allStamps_moved {c : Int} {l l' : List (Option Stamp)} (h : List.Forall₂ (Moved c) l l') :
    (allStamps l = none ∧ allStamps l' = none) ∨ ∃ ts ts', allStamps l = some ts ∧ allStamps l' = some ts' ∧
      List.Forall₂ (fun a b => b.ns = a.ns + c * 1000000000) ts ts' ∧ l = ts.map some ∧ l' = ts'.map some := by
  induction h with
  | nil => exact .inr ⟨[], [], rfl, rfl, .nil, rfl, rfl⟩
  | cons h1 _ ih =>
    cases h1 with
    | missing => exact .inl ⟨rfl, rfl⟩
    | moved e =>
      rcases ih with ⟨h3, h4⟩ | ⟨ts, ts', h3, h4, h5, rfl, rfl⟩
      · exact .inl ⟨by simp [allStamps, h3], by simp [allStamps, h4]⟩
      · exact .inr ⟨_ :: ts, _ :: ts', by simp [allStamps, h3], by simp [allStamps, h4], .cons e h5, rfl, rfl⟩

theorem wholeSecond_float {t : Stamp} (h : WholeSecond t) : timestampFloat t.ns = (t.ns / 1000000000 : Int) := by
  obtain ⟨h1, k, hk⟩ := h
  rw [mul_comm] at hk
  rw [hk, timestampFloat_second (hk ▸ h1), Int.mul_ediv_cancel _ (by norm_num)]

theorem getIndices_moved {g : Granularity} {sec : Int} (hg : stepSeconds g = some sec) (ci : Option Int) {c : Int}
    {ts ts' : List Stamp} (h : List.Forall₂ (fun a b => b.ns = a.ns + c * 1000000000) ts ts')
    (hw : ∀ t ∈ ts, WholeSecond t) (hw' : ∀ t ∈ ts', WholeSecond t) : getIndices g ci ts = getIndices g ci ts' := by
  cases h with
  | nil => rfl
  | @cons s s' ts ts' h1 h2 =>
    rw [getIndices_fixed hg, getIndices_fixed hg]
    have key : ∀ {a b : Stamp}, WholeSecond a → WholeSecond b → b.ns = a.ns + c * 1000000000 →
        timestampFloat b.ns = timestampFloat a.ns + c := by
      intro a b ha hb e
      rw [wholeSecond_float ha, wholeSecond_float hb, e, Int.add_mul_ediv_right _ _ (by norm_num), Int.cast_add]
    have hs := key (hw s (by simp)) (hw' s' (by simp)) h1
    have : ∀ {l l' : List Stamp}, List.Forall₂ (fun a b => b.ns = a.ns + c * 1000000000) l l' →
        (∀ t ∈ l, WholeSecond t) → (∀ t ∈ l', WholeSecond t) →
        l.map (fun t => roundSigned (roundSigned (timestampFloat t.ns - timestampFloat s.ns) /
          roundSigned ((sec * effInterval ci : Int) : ℚ))) =
        l'.map (fun t => roundSigned (roundSigned (timestampFloat t.ns - timestampFloat s'.ns) /
          roundSigned ((sec * effInterval ci : Int) : ℚ))) := by
      intro l l' hl
      induction hl with
      | nil => intros; rw [List.map_nil, List.map_nil]
      | cons e _ ih =>
        intro w w'
        simp only [List.map_cons]
        rw [ih (fun t ht => w t (List.mem_cons_of_mem _ ht)) (fun t ht => w' t (List.mem_cons_of_mem _ ht)),
          key (w _ (by simp)) (w' _ (by simp)) e, hs, add_sub_add_right_eq_sub]
    rw [this (.cons h1 h2) hw hw']

theorem seriesValidator_moved {E : Env} (hv : Bool) {rows rows' : List (PyVal × PyVal)} {g : Granularity} {sec : Int}
    (hg : stepSeconds g = some sec) (ci : Option Int) (hc : rows.map (·.2) = rows'.map (·.2)) {c : Int}
    {ots ots' : List (Option Stamp)} (h1 : E.toDatetime (rows.map (·.1)) = .ok ots)
    (h2 : E.toDatetime (rows'.map (·.1)) = .ok ots') (hm : List.Forall₂ (Moved c) ots ots')
    (hw : ∀ t, some t ∈ ots → WholeSecond t) (hw' : ∀ t, some t ∈ ots' → WholeSecond t) :
    seriesValidator E true hv rows g ci = seriesValidator E true hv rows' g ci := by
  have hl : rows.length = rows'.length := by simpa using congrArg List.length hc
  have hgn : g ≠ .none := by rintro rfl; simp [stepSeconds] at hg
  unfold seriesValidator validateValues
  rw [hl, cellValues_cells E hv hc, h1, h2]
  simp only [decide_eq_true hgn, if_true, if_pos hgn]
  split_ifs with a b
  · rfl
  · rfl
  · cases cellValues E hv rows' with
    | error e => rfl
    | ok vs =>
      simp only
      split_ifs with x y
      · rfl
      · rfl
      · simp only
        rw [ascendingCode_moved hm]
        rcases allStamps_moved hm with ⟨e1, e2⟩ | ⟨ts, ts', e1, e2, e3, rfl, rfl⟩
        · rw [e1, e2]
        · rw [e1, e2]
          simp only
          rw [getIndices_moved hg ci e3 (fun t ht => hw t (List.mem_map.2 ⟨t, ht, rfl⟩))
            (fun t ht => hw' t (List.mem_map.2 ⟨t, ht, rfl⟩))]

theorem seriesValidator_stamps {E : Env} (hv : Bool) {rows rows' : List (PyVal × PyVal)} {g : Granularity}
    (hgn : g ≠ .none) (ci : Option Int) (hc : rows.map (·.2) = rows'.map (·.2)) {ts ts' : List Stamp}
    (h1 : E.toDatetime (rows.map (·.1)) = .ok (ts.map some)) (h2 : E.toDatetime (rows'.map (·.1)) = .ok (ts'.map some))
    (ha : ascendingCode (ts.map some) = ascendingCode (ts'.map some)) (hi : getIndices g ci ts = getIndices g ci ts') :
    seriesValidator E true hv rows g ci = seriesValidator E true hv rows' g ci := by
  have hl : rows.length = rows'.length := by simpa using congrArg List.length hc
  have all : ∀ l : List Stamp, allStamps (l.map some) = some l := by
    intro l
    induction l with
    | nil => rfl
    | cons a t ih => simp [allStamps, ih]
  unfold seriesValidator validateValues
  rw [hl, cellValues_cells E hv hc, h1, h2]
  simp only [decide_eq_true hgn, if_true, if_pos hgn]
  split_ifs with a b
  · rfl
  · rfl
  · cases cellValues E hv rows' with
    | error e => rfl
    | ok vs =>
      simp only
      split_ifs with x y
      · rfl
      · rfl
      · simp only [ha, all, hi]

theorem ascendingCode_sorted {ts : List Stamp} (h : ts.Pairwise (fun a b => a.ns < b.ns)) :
    ascendingCode (ts.map some) = 0 := by
  induction ts with
  | nil => rfl
  | cons a t ih =>
    cases t with
    | nil => rfl
    | cons b t =>
      have hab : a.ns < b.ns := (List.pairwise_cons.1 h).1 b (by simp)
      have := ih (List.pairwise_cons.1 h).2
      simp only [List.map_cons] at this ⊢
      rw [ascendingCode, if_neg (by omega), if_neg (by omega), this]

theorem firstBad_good {bad : DateDifference → Bool} : ∀ {l : List DateDifference} (i : Nat), (∀ d ∈ l, bad d = false) →
    firstBad bad l i = none
  | [], _, _ => rfl
  | d :: t, i, h => by
    rw [firstBad, h d (by simp), firstBad_good (i + 1) fun x hx => h x (List.mem_cons_of_mem _ hx)]
    rfl

/-- the positions the code computes from stamps on the grid are the step counts over the interval -/
theorem getIndices_steps {g : Granularity} (hg : Gridded g) (ci : Option Int) {s : Stamp} {ts : List Stamp} {pos : List Int}
    (hts : GoodStamps (s :: ts)) (hw : stepSeconds g = none ∨ ∀ t ∈ s :: ts, WholeSecond t)
    (hon : List.Forall₂ (fun t k => OnGrid g 1 s t k) (s :: ts) pos) :
    getIndices g ci (s :: ts) = .ok (intLoop (match stepSeconds g with
      | none => pos.map fun k : Int => (k : ℚ) / effInterval ci
      | some sec => pos.map fun k => roundSigned (roundSigned ((k * sec : Int) : ℚ) / roundSigned ((sec * effInterval ci : Int) : ℚ))) 0) := by
  have hs : Valid s := hts.1 s (by simp)
  have lists : ∀ {f : Stamp → ℚ} {h : Int → ℚ} {l : List Stamp} {p : List Int}, (∀ t ∈ l, t ∈ s :: ts) →
      List.Forall₂ (fun t k => OnGrid g 1 s t k) l p → (∀ t ∈ s :: ts, ∀ k, OnGrid g 1 s t k → f t = h k) →
      l.map f = p.map h := by
    intro f h l p hl hp hf
    induction hp with
    | nil => rfl
    | cons a _ ih =>
      rw [List.map_cons, List.map_cons, hf _ (hl _ (by simp)) _ a, ih fun t ht => hl t (List.mem_cons_of_mem _ ht)]
  have each : ∀ t ∈ s :: ts, ∃ k, OnGrid g 1 s t k := by
    intro t ht
    obtain ⟨i, hi, rfl⟩ := List.getElem_of_mem ht
    have h2 : i < pos.length := hon.length_eq ▸ hi
    exact ⟨pos[i], (List.forall₂_iff_get.1 hon).2 i hi h2⟩
  rcases gridded_cases hg with rfl | rfl | ⟨sec, hsec⟩
  · have m : ∀ t ∈ s :: ts, ∀ k, OnGrid .monthly 1 s t k → (getDateDifference t s).days = 0 ∧
        (getDateDifference t s).months + (getDateDifference t s).years * 12 = k := by
      intro t ht k h
      obtain ⟨h3, h4⟩ := hts.2 s (by simp) t ht
      obtain ⟨a, b⟩ := (monthly_onGrid (by norm_num) hs (hts.1 t ht) h3 h4).1 h
      exact ⟨a, by rw [ratio_eq_int' (by norm_num), mul_one] at b; exact b⟩
    simp only [getIndices]
    rw [firstBad_good 0 (by
      intro d hd
      obtain ⟨t, ht, rfl⟩ := List.mem_map.1 hd
      obtain ⟨k, hk⟩ := each t ht
      simp [(m t ht k hk).1])]
    simp only [stepSeconds]
    rw [List.map_map, lists (fun _ h => h) hon (h := fun k => (k : ℚ) / effInterval ci) (fun t ht k hk => by
      show (((getDateDifference t s).months + (getDateDifference t s).years * 12 : Int) : ℚ) / _ = _
      rw [(m t ht k hk).2]
      rfl)]
  · have m : ∀ t ∈ s :: ts, ∀ k, OnGrid .yearly 1 s t k → ((getDateDifference t s).days = 0 ∧
        (getDateDifference t s).months = 0) ∧ (getDateDifference t s).years = k := by
      intro t ht k h
      obtain ⟨h3, h4⟩ := hts.2 s (by simp) t ht
      obtain ⟨a, b⟩ := (yearly_onGrid (by norm_num) hs (hts.1 t ht) h3 h4).1 h
      exact ⟨a, by rw [ratio_eq_int' (by norm_num), mul_one] at b; exact b⟩
    simp only [getIndices]
    rw [firstBad_good 0 (by
      intro d hd
      obtain ⟨t, ht, rfl⟩ := List.mem_map.1 hd
      obtain ⟨k, hk⟩ := each t ht
      simp [(m t ht k hk).1])]
    simp only [stepSeconds]
    rw [List.map_map, lists (fun _ h => h) hon (h := fun k => (k : ℚ) / effInterval ci) (fun t ht k hk => by
      show (((getDateDifference t s).years : Int) : ℚ) / _ = _
      rw [(m t ht k hk).2]
      rfl)]
  · rw [getIndices_fixed hsec]
    simp only [hsec]
    have hw : ∀ t ∈ s :: ts, WholeSecond t := by
      rcases hw with h | h
      · rw [hsec] at h; cases h
      · exact h
    rw [lists (fun _ h => h) hon (h := fun k => roundSigned (roundSigned ((k * sec : Int) : ℚ) /
      roundSigned ((sec * effInterval ci : Int) : ℚ))) (fun t ht k hk => by
        have e : t.ns = s.ns + k * sec * 1000000000 := by
          rw [onGrid_fixed hsec] at hk
          rw [mul_one, ← mul_assoc] at hk
          omega
        rw [wholeSecond_float (hw t ht), wholeSecond_float (hw s (by simp)), e, Int.add_mul_ediv_right _ _ (by norm_num),
          Int.cast_add, add_sub_cancel_left])]

/-- **C110**, no granularity: if the request names no granularity, or `none`, the cells of the `timestamp` column and its
presence change nothing but the labels of the answer; errors, the detector and the dict afterwards are the same. -/
theorem C110_unused {E : Env} (hE : E.WF) (W : Wild) (d : Detector) {ht ht' hv : Bool}
    {rows rows' : List (PyVal × PyVal)} {params : Params} (hno : params "indices" = none)
    (hf : FiniteFill E (.frame ht hv rows) params)
    (hg : params "granularity" = none ∨ params "granularity" = some (.str "none"))
    (hc : rows.map (·.2) = rows'.map (·.2)) :
    untimedOutcome (predict E W d (.frame ht hv rows) params) =
        untimedOutcome (predict E W d (.frame ht' hv rows') params) ∧
      (predict E W d (.frame ht hv rows) params).detector = (predict E W d (.frame ht' hv rows') params).detector ∧
      (predict E W d (.frame ht hv rows) params).params = (predict E W d (.frame ht' hv rows') params).params := by
  refine predict_untimed hE W d hno hf hc ?_
  intro g ci ha
  have : g = .none := by
    rcases ha with ⟨-, h⟩ | h
    · exact h
    · unfold requested at h
      rcases hg with h' | h'
      · rw [h'] at h; cases h
      · rw [h'] at h
        simp only [Option.some.injEq, PyVal.str.injEq] at h
        exact name_injective (g' := .none) h.symm
  subst this
  exact seriesValidator_plain ht ht' hv ci hc

/-- **C110**, moving the series in time: for a granularity of fixed length, instants that are whole seconds of the years
1824 to 2116 and values kept as they are, moving all instants by the same number of seconds changes nothing but the labels
of the answer; errors, the detector and the dict afterwards are the same. -/
theorem C110_shift {E : Env} (hE : E.WF) (W : Wild) (d : Detector) {hv : Bool}
    {rows rows' : List (PyVal × PyVal)} {params : Params} (hno : params "indices" = none)
    (hf : FiniteFill E (.frame true hv rows) params) {g : Granularity} {sec : Int} (hg : requested params g)
    (hsec : stepSeconds g = some sec) (hc : rows.map (·.2) = rows'.map (·.2)) {c : Int}
    {ots ots' : List (Option Stamp)} (h1 : E.toDatetime (rows.map (·.1)) = .ok ots)
    (h2 : E.toDatetime (rows'.map (·.1)) = .ok ots') (hm : List.Forall₂ (Moved c) ots ots')
    (hw : ∀ t, some t ∈ ots → WholeSecond t) (hw' : ∀ t, some t ∈ ots' → WholeSecond t) :
    untimedOutcome (predict E W d (.frame true hv rows) params) =
        untimedOutcome (predict E W d (.frame true hv rows') params) ∧
      (predict E W d (.frame true hv rows) params).detector = (predict E W d (.frame true hv rows') params).detector ∧
      (predict E W d (.frame true hv rows) params).params = (predict E W d (.frame true hv rows') params).params := by
  refine predict_untimed hE W d hno hf hc ?_
  intro g' ci ha
  have : g' = g := by
    unfold requested at hg
    rcases ha with ⟨h, -⟩ | h
    · rw [h] at hg; cases hg
    · unfold requested at h
      rw [h] at hg
      simp only [Option.some.injEq, PyVal.str.injEq] at hg
      exact name_injective hg
  subst this
  exact seriesValidator_moved hv hsec ci hc h1 h2 hm hw hw'

/-- **C110**, on the grid: instants count by the number of steps from the first one only. For a granularity other than
`microsecond`, two tables with the same values whose instants ascend and lie the same numbers of steps after their first one
get the same answer up to the labels, the same error, detector and dict; for months and years however long the months are, for
the granularities of fixed length at whole seconds of the years 1824 to 2116. -/
theorem C110_steps {E : Env} (hE : E.WF) (W : Wild) (d : Detector) {hv : Bool}
    {rows rows' : List (PyVal × PyVal)} {params : Params} (hno : params "indices" = none)
    (hf : FiniteFill E (.frame true hv rows) params) {g : Granularity} (hg : requested params g) (hgr : Gridded g)
    (hc : rows.map (·.2) = rows'.map (·.2)) {s s' : Stamp} {ts ts' : List Stamp} {pos : List Int}
    (h1 : E.toDatetime (rows.map (·.1)) = .ok ((s :: ts).map some))
    (h2 : E.toDatetime (rows'.map (·.1)) = .ok ((s' :: ts').map some))
    (ha : (s :: ts).Pairwise fun a b => a.ns < b.ns) (ha' : (s' :: ts').Pairwise fun a b => a.ns < b.ns)
    (hts : GoodStamps (s :: ts)) (hts' : GoodStamps (s' :: ts'))
    (hw : stepSeconds g = none ∨ ((∀ t ∈ s :: ts, WholeSecond t) ∧ ∀ t ∈ s' :: ts', WholeSecond t))
    (hon : List.Forall₂ (fun t k => OnGrid g 1 s t k) (s :: ts) pos)
    (hon' : List.Forall₂ (fun t k => OnGrid g 1 s' t k) (s' :: ts') pos) :
    untimedOutcome (predict E W d (.frame true hv rows) params) =
        untimedOutcome (predict E W d (.frame true hv rows') params) ∧
      (predict E W d (.frame true hv rows) params).detector = (predict E W d (.frame true hv rows') params).detector ∧
      (predict E W d (.frame true hv rows) params).params = (predict E W d (.frame true hv rows') params).params := by
  refine predict_untimed hE W d hno hf hc ?_
  intro g' ci hask
  have : g' = g := by
    unfold requested at hg
    rcases hask with ⟨h, -⟩ | h
    · rw [h] at hg; cases hg
    · unfold requested at h
      rw [h] at hg
      simp only [Option.some.injEq, PyVal.str.injEq] at hg
      exact name_injective hg
  subst this
  refine seriesValidator_stamps hv hgr.1 ci hc h1 h2 ?_ ?_
  · rw [ascendingCode_sorted ha, ascendingCode_sorted ha']
  · rw [getIndices_steps hgr ci hts (hw.imp_right And.left) hon, getIndices_steps hgr ci hts' (hw.imp_right And.right) hon']

/-! ### Cases -/

/-- two rows are missing on a grid of seconds; `k` seconds later -/
def shiftRows (k : Int) : List (PyVal × PyVal) :=
  demoSeries.zipIdx.map fun x => (.int ((x.2 : Int) + (if x.2 < 5 then 0 else 2) + k), .int x.1)

/-- their instants -/
def shiftStamps (k : Int) : List Stamp :=
  demoSeries.zipIdx.map fun x => demoStamp ((x.2 : Int) + (if x.2 < 5 then 0 else 2) + k)

def shiftParams : Params := Params.ofList [("granularity", .str "secondly"), ("period", .int 0)]

/-- non-vacuity of `C110_shift`: the request is answered, with an anomaly, and the labels differ -/
example : okFlags (predict demoEnv demoWild entireDetector (.frame true true (shiftRows 0)) shiftParams) =
    okFlags (predict demoEnv demoWild entireDetector (.frame true true (shiftRows 1000000)) shiftParams) ∧
    ((okFlags (predict demoEnv demoWild entireDetector (.frame true true (shiftRows 0)) shiftParams)).getD []).getD 11
      (false, false, false) = (true, true, false) := by
  decide +kernel

/-- non-vacuity of `C110_shift`: all its hypotheses hold of that request -/
example : untimedOutcome (predict demoEnv demoWild entireDetector (.frame true true (shiftRows 0)) shiftParams) =
    untimedOutcome (predict demoEnv demoWild entireDetector (.frame true true (shiftRows 1000000)) shiftParams) := by
  have hm : List.Forall₂ (Moved 1000000) ((shiftStamps 0).map some) ((shiftStamps 1000000).map some) := by
    rw [List.forall₂_map_left_iff, List.forall₂_map_right_iff]
    have : List.Forall₂ (fun a b : Stamp => b.ns = a.ns + 1000000 * 1000000000) (shiftStamps 0) (shiftStamps 1000000) := by
      decide +kernel
    exact this.imp fun _ _ h => .moved h
  have hw : ∀ k, (∀ t ∈ shiftStamps k, WholeSecond t) → ∀ t, some t ∈ (shiftStamps k).map some → WholeSecond t := by
    intro k h t ht
    obtain ⟨t', ht', e⟩ := List.mem_map.1 ht
    cases e
    exact h t ht'
  have h1 : demoEnv.toDatetime ((shiftRows 0).map (·.1)) = .ok ((shiftStamps 0).map some) := by decide +kernel
  have h2 : demoEnv.toDatetime ((shiftRows 1000000).map (·.1)) = .ok ((shiftStamps 1000000).map some) := by decide +kernel
  have hg : requested shiftParams .secondly := by unfold requested; rfl
  have hf : FiniteFill demoEnv (.frame true true (shiftRows 0)) shiftParams := .inl ⟨fun h => (by cases h), fun f h => by cases h⟩
  have hn : shiftParams "indices" = none := by rfl
  have hc : (shiftRows 0).map (·.2) = (shiftRows 1000000).map (·.2) := by
    unfold shiftRows
    rw [List.map_map, List.map_map]
    rfl
  have hs : stepSeconds .secondly = some 1 := rfl
  generalize shiftParams = p at *
  exact (C110_shift demoEnv_WF demoWild entireDetector hn hf hg hs hc h1 h2 hm
    (hw 0 (by unfold WholeSecond; decide +kernel)) (hw 1000000 (by unfold WholeSecond; decide +kernel))).1

/-- the ends of the months from `y`-`m` on; the instants are those of a day count of 31 per month -/
def endOfMonth (y m : Int) (k : Int) : Stamp :=
  let n := m - 1 + k
  ⟨n * 2678400000000000, y + n / 12, n % 12 + 1, daysInMonth (y + n / 12) (n % 12 + 1)⟩

/-- cells that count months, read as the ends of the months from January of the year `y` -/
def monthEnv (y : Int) : Env := { demoEnv with
  toDatetime := fun l => l.mapM fun v => match v with
    | .int i => .ok (some (endOfMonth y 1 i))
    | _ => .error .valueError }

def monthParams : Params := Params.ofList [("granularity", .str "monthly"), ("period", .int 0)]

/-- non-vacuity of `C110_steps`: month ends, from January 2023 and from February 2024, a month missing; the hypotheses on the
stamps hold and the request is answered with an anomaly -/
example : let p : List Int := [0, 1, 2, 3, 4, 6, 7, 8, 9, 10, 11, 12, 13, 14]
    let a := p.map (endOfMonth 2023 1)
    let b := p.map fun k => endOfMonth 2023 1 (k + 13)
    a.Pairwise (fun x y => x.ns < y.ns) ∧ b.Pairwise (fun x y => x.ns < y.ns) ∧
    (∀ t ∈ a ++ b, 1 ≤ t.month ∧ t.month ≤ 12 ∧ 1 ≤ t.day ∧ t.day = lastDay t.year t.month) ∧
    List.Forall₂ (fun t k => monthNo t - monthNo (endOfMonth 2023 1 0) = k * 1) a p ∧
    List.Forall₂ (fun t k => monthNo t - monthNo (endOfMonth 2023 1 13) = k * 1) b p ∧
    (a.getD 1 (endOfMonth 0 1 0)).day = 28 ∧ (b.getD 1 (endOfMonth 0 1 0)).day = 31 ∧
    okFlags (predict (monthEnv 2023) demoWild entireDetector (.frame true true ((p.zip demoSeries).map fun x => (.int x.1, .int x.2)))
      monthParams) =
    okFlags (predict (monthEnv 2023) demoWild entireDetector
      (.frame true true ((p.zip demoSeries).map fun x => (.int (x.1 + 13), .int x.2))) monthParams) ∧
    ((okFlags (predict (monthEnv 2023) demoWild entireDetector
      (.frame true true ((p.zip demoSeries).map fun x => (.int x.1, .int x.2))) monthParams)).getD []).getD 11
        (false, false, false) = (true, true, false) := by
  decide +kernel

/-- non-vacuity of `C110_unused`: unreadable timestamps, and no timestamp column -/
example : okFlags (predict demoEnv demoWild entireDetector (.frame true true (demoSeries.map fun x => (.str "?", .int x)))
      (Params.ofList [("period", .int 0)])) =
    okFlags (predict demoEnv demoWild entireDetector (.frame false true (demoRows demoSeries))
      (Params.ofList [("period", .int 0)])) ∧
    okLen (predict demoEnv demoWild entireDetector (.frame false true (demoRows demoSeries))
      (Params.ofList [("period", .int 0)])) = some 14 := by
  decide +kernel

/-- an environment whose cells count milliseconds from the epoch -/
def epochEnv : Env := { demoEnv with
  toDatetime := fun l => l.mapM fun v => match v with
    | .int i => .ok (some ⟨i * 1000000, 1970, 1, 1⟩)
    | _ => .error .valueError }

/-- **C110** does not extend to instants inside a second: a secondly series that starts at the full second is answered; the
same series a tenth of a second later is refused (4.1 - 0.1 is not 4 in doubles). -/
theorem C110_subsecond : ∃ E : Env, E.WF ∧ ∃ rows rows' : List (PyVal × PyVal), ∃ ts ts' : List Stamp,
    rows.map (·.2) = rows'.map (·.2) ∧ E.toDatetime (rows.map (·.1)) = .ok (ts.map some) ∧
    E.toDatetime (rows'.map (·.1)) = .ok (ts'.map some) ∧
    List.Forall₂ (fun a b => b.ns = a.ns + 100000000) ts ts' ∧
    okLen (predict E demoWild entireDetector (.frame true true rows) shiftParams) = some 14 ∧
    errOf (predict E demoWild entireDetector (.frame true true rows') shiftParams) = some .valueError := by
  refine ⟨epochEnv, { demoEnv_WF with toDatetime_len := fun _ _ h => (mapM_except_ok h).length_eq.symm },
    demoRows demoSeries 1000, (demoRows demoSeries 1000).map fun r => (match r.1 with | .int i => .int (i + 100) | v => v, r.2),
    (List.range 14).map fun (i : Nat) => ⟨i * 1000000000, 1970, 1, 1⟩,
    (List.range 14).map fun (i : Nat) => ⟨i * 1000000000 + 100000000, 1970, 1, 1⟩, ?_⟩
  refine ⟨by rw [List.map_map]; rfl, by decide +kernel, by decide +kernel, by decide +kernel, by decide +kernel, by decide +kernel⟩

end Verif
