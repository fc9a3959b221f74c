import Verif.Props.Unused

/-!
# C126: the unit of time

A step can be said in several ways: 60 seconds or one minute, 24 hours or one day.
-/

namespace Verif

open Spec

namespace Spec

/-- seconds of the units that have a fixed length -/
def unitSeconds : String → Option Int
  | "weekly" => some 604800
  | "daily" => some 86400
  | "hourly" => some 3600
  | "minutely" => some 60
  | "secondly" => some 1
  | _ => none

/-- the request says that points are `s` seconds apart: `granularity` names a unit of fixed length, `customInterval` is their
number, one if absent -/
def StepOf (p : Params) (s : Int) : Prop :=
  ∃ g sec n, p "granularity" = some (.str g) ∧ unitSeconds g = some sec ∧ s = sec * n ∧
    ((p "customInterval" = none ∧ n = 1) ∨ ∃ v, p "customInterval" = some v ∧ IsInt v n ∧ 0 < n)

/-- the answer without the suggested window -/
def unsuggested (items : List Item) : List Item := items.map fun it => { it with suggested := none }

end Spec

/-! ### parsing -/

/-- equal but for the unit of time -/
def OffUnit (p q : Params) : Prop := ∀ x, x ≠ "granularity" → x ≠ "customInterval" → p x = q x

def SimU {α β : Type} (R : α → β → Prop) (x : PM α) (y : PM β) : Prop :=
  ∀ p q, OffUnit p q → ResRel R (x p).2 (y q).2 ∧ OffUnit (x p).1 (y q).1

theorem simU_bind {α α' β β' : Type} {R : α → α' → Prop} {S : β → β' → Prop} {x : PM α} {y : PM α'}
    {f : α → PM β} {g : α' → PM β'} (hx : SimU R x y) (hf : ∀ c d, R c d → SimU S (f c) (g d)) :
    SimU S (x >>= f) (y >>= g) := by
  intro p q hpq
  obtain ⟨h1, h2⟩ := hx p q hpq
  show ResRel S (PM.bind x f p).2 (PM.bind y g q).2 ∧ OffUnit (PM.bind x f p).1 (PM.bind y g q).1
  unfold PM.bind
  rcases e : x p with ⟨p', r⟩
  rcases e' : y q with ⟨q', r'⟩
  rw [e, e'] at h1 h2
  cases h1 with
  | ok h => exact hf _ _ h p' q' h2
  | early c => exact ⟨.early c, h2⟩
  | err x c => exact ⟨.err x c, h2⟩

theorem simU_of {α : Type} {x : PM α} (hg : ∀ a b, Sim "granularity" a b x) (hi : ∀ a b, Sim "customInterval" a b x) :
    SimU Eq x x := by
  intro p q hpq
  let m : Params := fun y => if y = "granularity" then q y else p y
  have h1 : Off "granularity" (p "granularity") (q "granularity") p m :=
    ⟨fun y hy => by simp [m, hy], rfl, by simp [m]⟩
  have h2 : Off "customInterval" (p "customInterval") (q "customInterval") m q := by
    refine ⟨fun y hy => ?_, by simp [m], rfl⟩
    by_cases h : y = "granularity"
    · simp [m, h]
    · simp only [m, if_neg h]
      exact hpq y h hy
  obtain ⟨r1, s1⟩ := hg _ _ p m h1
  obtain ⟨r2, s2⟩ := hi _ _ m q h2
  refine ⟨?_, fun y h h' => (s1.same y h).trans (s2.same y h')⟩
  rw [r1, r2]
  rcases (x q).2 with a | c | ⟨e, c⟩
  · exact .ok rfl
  · exact .early c
  · exact .err e c

theorem simU_step {α β β' : Type} {S : β → β' → Prop} {x : PM α} {f : α → PM β} {g : α → PM β'}
    (hg : ∀ a b, Sim "granularity" a b x) (hi : ∀ a b, Sim "customInterval" a b x) (hf : ∀ c, SimU S (f c) (g c)) :
    SimU S (x >>= f) (x >>= g) := simU_bind (simU_of hg hi) fun c _ h => h ▸ hf c

theorem bind_of_ok {α β : Type} {x : PM α} {f : α → PM β} {p p' : Params} {c : α} (h : x p = (p', .ok c)) :
    (x >>= f) p = f c p' := by
  show PM.bind x f p = _
  unfold PM.bind
  rw [h]

/-- the model parameters with another unit -/
def ModelParams.unit (mp : ModelParams) (g : Granularity) (iv : Option Int) : ModelParams :=
  { mp with granularity := g, interval := iv }

def SameUnit (g : Granularity) (iv : Option Int) (r r' : ParseResult) : Prop :=
  r'.hasTs = r.hasTs ∧ r'.hasValue = r.hasValue ∧ r'.rows = r.rows ∧ r'.code = r.code ∧ r'.mp = r.mp.unit g iv

/-- what the two steps that read the unit return -/
theorem parse_step {p : Params} {s : Int} (h : StepOf p s) : ∃ g sec iv p1 p2, secondsOf g = some sec ∧ g ≠ .none ∧ g ≠ .microsecond ∧ g ≠ .monthly ∧ g ≠ .yearly ∧
    (p "granularity" = some (.str g.name)) ∧
    s = sec * iv.getD 1 ∧ 0 < iv.getD 1 ∧ parseGranularity p = (p1, .ok g) ∧ parseInterval p1 = (p2, .ok iv) ∧
    ∀ x, x ≠ "granularity" → x ≠ "customInterval" → p2 x = p x := by
  obtain ⟨gs, sec, n, hg, hu, hs, hn⟩ := h
  have key : ∃ g : Granularity, g.name = gs ∧ secondsOf g = some sec ∧ g ≠ .none ∧ g ≠ .microsecond ∧ g ≠ .monthly ∧ g ≠ .yearly ∧
      Granularity.ofName gs = some g := by
    unfold unitSeconds at hu
    split at hu
    · cases hu; exact ⟨.weekly, by decide⟩
    · cases hu; exact ⟨.daily, by decide⟩
    · cases hu; exact ⟨.hourly, by decide⟩
    · cases hu; exact ⟨.minutely, by decide⟩
    · cases hu; exact ⟨.secondly, by decide⟩
    · cases hu
  obtain ⟨g, rfl, h1, h2, h3, h4, h5, h6⟩ := key
  have e1 : parseGranularity p = (p.set "granularity" (.gran g), .ok g) := by
    have e : parseGranularity p = (match p "granularity" with
      | none => do PM.set "granularity" (.gran .none); pure .none
      | some (.str s) =>
        match Granularity.ofName s with
        | some g => do PM.set "granularity" (.gran g); pure g
        | none => PM.early "InvalidGranularity"
      | some v => if v.hashable then PM.early "InvalidGranularity" else PM.throw .typeError : PM Granularity) p := rfl
    rw [e, hg]
    simp only [h6]
    rfl
  have e2 : ∀ p1 : Params, parseInterval p1 = (match p1 "customInterval" with
    | none => do PM.set "customInterval" .none; pure none
    | some v => match v.asInt? with
      | some i => if i ≤ 0 then PM.early "InvalidCustomInterval" else pure (some i)
      | none => PM.early "InvalidCustomInterval" : PM (Option Int)) p1 := fun _ => rfl
  have e3 : p.set "granularity" (.gran g) "customInterval" = p "customInterval" := Params.set_ne _ _ (by decide)
  rcases hn with ⟨hn, rfl⟩ | ⟨v, hv, hi, h0⟩
  · refine ⟨g, sec, none, _, _, h1, h2, h3, h4, h5, hg, by simpa using hs, by decide, e1, by rw [e2, e3, hn]; rfl, ?_⟩
    intro x hx hx'
    exact (Params.set_ne _ _ hx').trans (Params.set_ne _ _ hx)
  · have hv' : v.asInt? = some n := by cases hi <;> rfl
    refine ⟨g, sec, some n, _, _, h1, h2, h3, h4, h5, hg, by simpa using hs, by simpa using h0, e1,
      by rw [e2, e3, hv]; simp only [hv', if_neg (not_le.2 h0)]; rfl, ?_⟩
    intro x hx _
    exact Params.set_ne _ _ hx

/-- equal steps, equal positions -/
theorem getIndices_step {g g' : Granularity} {sec sec' : Int} {iv iv' : Option Int} (h : secondsOf g = some sec) (h' : secondsOf g' = some sec')
    (hm : g ≠ .microsecond ∧ g ≠ .monthly ∧ g ≠ .yearly) (hm' : g' ≠ .microsecond ∧ g' ≠ .monthly ∧ g' ≠ .yearly)
    (h0 : 0 < iv.getD 1) (h0' : 0 < iv'.getD 1) (he : sec * iv.getD 1 = sec' * iv'.getD 1) (ts : List Stamp) :
    getIndices g iv ts = getIndices g' iv' ts := by
  have key : ∀ (g : Granularity) (sec : Int) (iv : Option Int), secondsOf g = some sec →
      (g ≠ .microsecond ∧ g ≠ .monthly ∧ g ≠ .yearly) → 0 < iv.getD 1 →
      getIndices g iv ts = match ts with
        | [] => .ok (.ok [])
        | s :: _ => .ok (intLoop (ts.map fun t =>
          roundSigned (roundSigned (timestampFloat t.ns - timestampFloat s.ns) / roundSigned ((sec * iv.getD 1 : Int) : ℚ))) 0) := by
    rintro g sec iv h ⟨h1, h2, h3⟩ h0
    unfold getIndices
    have : max (iv.getD 1) 1 = iv.getD 1 := by omega
    rw [this]
    cases ts with
    | nil => rfl
    | cons s t => cases g <;> simp_all [secondsOf]
  rw [key g sec iv h hm h0, key g' sec' iv' h' hm' h0', he]

/-- the two units make steps of the same length -/
structure SameStep (g : Granularity) (iv : Option Int) (g' : Granularity) (iv' : Option Int) : Prop where
  step : ∃ sec sec', secondsOf g = some sec ∧ secondsOf g' = some sec' ∧ sec * iv.getD 1 = sec' * iv'.getD 1
  left : 0 < iv.getD 1
  right : 0 < iv'.getD 1

theorem parseArg_step (E : Env) (data : DataArg) {p q : Params} {s : Int} (hp : StepOf p s) (hq : StepOf q s) (hpq : OffUnit p q) :
    ResRel (fun r r' => ∃ g iv, SameUnit g iv r r' ∧ SameStep r.mp.granularity r.mp.interval g iv ∧
        p "granularity" = some (.str r.mp.granularity.name) ∧ q "granularity" = some (.str g.name)) (parseArg E data p).2 (parseArg E data q).2 ∧
      OffUnit (parseArg E data p).1 (parseArg E data q).1 := by
  obtain ⟨g, sec, iv, p1, p2, a1, a2, a3, a4, a5, a11, a6, a7, a8, a9, a10⟩ := parse_step hp
  obtain ⟨g', sec', iv', q1, q2, b1, b2, b3, b4, b5, b11, b6, b7, b8, b9, b10⟩ := parse_step hq
  have hoff : OffUnit p2 q2 := fun x h1 h2 => (a10 x h1 h2).trans ((hpq x h1 h2).trans (b10 x h1 h2).symm)
  unfold parseArg
  split
  · exact ⟨.early none, hpq⟩
  · exact ⟨.early none, hpq⟩
  · exact ⟨.err _ _, hpq⟩
  split
  · exact ⟨.early none, hpq⟩
  rw [bind_of_ok a8, bind_of_ok b8, bind_of_ok a9, bind_of_ok b9]
  rename_i hasTs hasValue rows _
  have hidx : parseIndices E hasTs hasValue rows g iv = parseIndices E hasTs hasValue rows g' iv' := by
    unfold parseIndices
    have : seriesValidator E hasTs hasValue rows g iv = seriesValidator E hasTs hasValue rows g' iv' := by
      unfold seriesValidator
      simp only [getIndices_step a1 b1 ⟨a3, a4, a5⟩ ⟨b3, b4, b5⟩ a7 b7 (a6.symm.trans b6), a2, b2, ne_eq, not_false_eq_true]
    rw [this]
  rw [hidx]
  refine (?_ : SimU _ _ _) p2 q2 hoff
  refine simU_step (fun _ _ => sim_period (by decide)) (fun _ _ => sim_period (by decide)) fun _ =>
    simU_step (fun _ _ => sim_alpha (by decide)) (fun _ _ => sim_alpha (by decide)) fun al =>
    simU_step (fun _ _ => sim_ratio (by decide)) (fun _ _ => sim_ratio (by decide)) fun ra =>
    simU_step (fun _ _ => sim_sensitivity (by decide)) (fun _ _ => sim_sensitivity (by decide)) fun _ =>
    simU_step (fun _ _ => sim_threshold (by decide)) (fun _ _ => sim_threshold (by decide)) fun th =>
    simU_step (fun _ _ => sim_default (by decide)) (fun _ _ => sim_default (by decide)) fun _ =>
    simU_step (fun _ _ => sim_fill (by decide) (by decide) (by decide) (by decide))
      (fun _ _ => sim_fill (by decide) (by decide) (by decide) (by decide)) fun fi =>
    simU_step (fun _ _ => sim_default (by decide)) (fun _ _ => sim_default (by decide)) fun _ =>
    simU_step (fun _ _ => sim_default (by decide)) (fun _ _ => sim_default (by decide)) fun sp =>
    simU_step (fun _ _ => sim_boundary (by decide) (by decide)) (fun _ _ => sim_boundary (by decide) (by decide)) fun bv =>
    simU_step (fun _ _ => sim_detector (by decide)) (fun _ _ => sim_detector (by decide)) fun de =>
    simU_step (fun _ _ => sim_indices (by decide) (by decide) _ _ _ _ _ _) (fun _ _ => sim_indices (by decide) (by decide) _ _ _ _ _ _) fun ix => ?_
  exact fun p q h => ⟨.ok ⟨g', iv', ⟨rfl, rfl, rfl, rfl, rfl⟩, ⟨⟨sec, sec', a1, b1, a6.symm.trans b6⟩, a7, b7⟩, a11, b11⟩, h⟩

/-! ### running -/

/-- the model with another unit -/
def Model.unit (M : Model) (g : Granularity) (i : Nat) : Model := { M with gran := g, interval := i }

theorem init_unit (E : Env) (vs : List PyFloat) (mp : ModelParams) (g : Granularity) (iv : Option Int) :
    Model.init E vs (mp.unit g iv) = (Model.init E vs mp).map (·.unit g (iv.getD 1).toNat) := by
  unfold Model.init ModelParams.unit
  simp only
  split
  · rfl
  · split
    · split
      · rfl
      · rename_i values _ _ _ _ _ idx _
        cases FillProc.init idx values <;> rfl
    · rfl

/-- the residual model is used for steps of less than an hour -/
theorem trigger_step (E : Env) {g : Granularity} {iv : Option Int} {sec : Int} (h : secondsOf g = some sec) (h0 : 0 < iv.getD 1)
    (l : List ℚ) : shouldTriggerSr E g ((iv.getD 1).toNat : Int) l = (decide (sec * iv.getD 1 < 3600) && !decide (|E.mad l| < EPS)) := by
  unfold shouldTriggerSr
  simp only
  congr 1
  have : ((iv.getD 1).toNat : Int) = iv.getD 1 := by omega
  rw [this]
  cases g <;> simp [secondsOf] at h <;> subst h <;> simp <;> omega

theorem trigger_same (E : Env) {g g' : Granularity} {iv iv' : Option Int} (h : SameStep g iv g' iv') (l : List ℚ) :
    shouldTriggerSr E g' ((iv'.getD 1).toNat : Int) l = shouldTriggerSr E g ((iv.getD 1).toNat : Int) l := by
  obtain ⟨sec, sec', h1, h2, h3⟩ := h.step
  rw [trigger_step E h1 h.left, trigger_step E h2 h.right, h3]

/-- the two units guess the same calendar periods -/
def SameGuess (g : Granularity) (i : Nat) (g' : Granularity) (i' : Nat) : Prop :=
  guessPeriod g' i' = guessPeriod g i ∧ standardPeriod g' i' = standardPeriod g i

theorem guess_minutes {iv iv' : Option Int} (h : SameStep .minutely iv .secondly iv') :
    SameGuess .minutely (iv.getD 1).toNat .secondly (iv'.getD 1).toNat := by
  obtain ⟨sec, sec', h1, h2, h3⟩ := h.step
  have h4 := h.left
  have h5 := h.right
  cases h1
  cases h2
  have e : (iv'.getD 1).toNat = 60 * (iv.getD 1).toNat := by omega
  have h6 : (iv.getD 1).toNat ≠ 0 := by omega
  rw [e]
  generalize (iv.getD 1).toNat = k at *
  have h7 : 60 * k ≠ 0 := by omega
  have key : ∀ a, 60 * a / (60 * k) = a / k := fun a => Nat.mul_div_mul_left a k (by norm_num)
  unfold SameGuess guessPeriod standardPeriod
  simp only [if_neg h6, if_neg h7]
  exact ⟨by rw [← key (1440 * 7), ← key 1440, ← key (1440 * 2)], by rw [← key (1440 * 7)]⟩

theorem detectPeriod_unit (E : Env) (M : Model) (g : Granularity) (i : Nat) (skip : Bool) (h : skip = true ∨ SameGuess M.gran M.interval g i) :
    (M.unit g i).detectPeriod E skip = M.detectPeriod E skip := by
  have h1 : ∀ n, noneError n g i skip = noneError n M.gran M.interval skip := by
    intro n
    unfold noneError
    rcases h with rfl | h
    · rfl
    · rw [h.1]
  have h2 : ∀ l, periodDetection E l g i skip = periodDetection E l M.gran M.interval skip := by
    intro l
    unfold periodDetection
    rcases h with rfl | h
    · rfl
    · unfold simpleDetect
      rw [h.1, h.2]
  have h3 : ∀ md n, (M.unit g i).filled E md n = M.filled E md n := fun _ _ => rfl
  unfold Model.detectPeriod
  have e1 : (M.unit g i).mode = M.mode := rfl
  have e2 : (M.unit g i).fill = M.fill := rfl
  have e3 : (M.unit g i).fixed = M.fixed := rfl
  have e4 : (M.unit g i).values = M.values := rfl
  have e5 : (M.unit g i).gran = g := rfl
  have e6 : (M.unit g i).interval = i := rfl
  simp only [h3, e1, e2, e3, e4, e5, e6, h1, h2]

theorem select_unit (E : Env) (M : Model) (g : Granularity) (i : Nat) (period : Option Nat) (last : Bool)
    (ht : ∀ l, shouldTriggerSr E g i l = shouldTriggerSr E M.gran M.interval l) (h : period ≠ none ∨ SameGuess M.gran M.interval g i) :
    (M.unit g i).select E period last = M.select E period last := by
  have h1 : (M.unit g i).usedPeriod E period = M.usedPeriod E period := by
    unfold Model.usedPeriod
    cases period with
    | some n => rfl
    | none =>
      rw [detectPeriod_unit E M g i false (.inr (h.resolve_left (fun h => h rfl)))]
      rfl
  have h2 : ∀ p, (M.unit g i).usedSeries E p = M.usedSeries E p := fun _ => rfl
  have h3 : (M.unit g i).maxRatio last = M.maxRatio last := rfl
  have h4 : ∀ s p, (M.unit g i).runNaN E s p last = M.runNaN E s p last := by
    intro s p
    unfold Model.runNaN Model.unit
    simp only [ht]
  have h5 : (M.unit g i).values = M.values := rfl
  have h6 : ∀ s r p, (M.unit g i).run E s r p last = M.run E s r p last := by
    intro s r p
    unfold Model.run Model.unit
    simp only [ht]
  unfold Model.select
  simp only [h1, h2, h3, h4, h5, h6]

theorem detect_unit (E : Env) (M : Model) (g : Granularity) (i : Nat) (det : Option (List (String × PyVal))) (period : Option Nat) (last : Bool)
    (ht : ∀ l, shouldTriggerSr E g i l = shouldTriggerSr E M.gran M.interval l) (h : period ≠ none ∨ SameGuess M.gran M.interval g i) :
    (M.unit g i).detect E det period last = M.detect E det period last := by
  have h1 : (M.unit g i).majority = M.majority := rfl
  have h2 : ∀ d, (M.unit g i).explicitError d period = M.explicitError d period := fun _ => rfl
  have h3 : ∀ p s r, (M.unit g i).spectrum E p s r = M.spectrum E p s r := by
    intro p s r
    have e : (M.unit g i).needSpectrum = M.needSpectrum := rfl
    unfold Model.spectrum
    rw [detectPeriod_unit E M g i true (.inl rfl), e]
  unfold Model.detect
  simp only [select_unit E M g i period last ht h, h1, h2, h3]

/-- a named period is the one that is used -/
theorem detect_named {E : Env} {M : Model} {det : Option (List (String × PyVal))} {n : Nat} {last : Bool} {rows : List Row} {p : Nat}
    {md : ModelType} (h : M.detect E det (some n) last = .ok (rows, p, md)) : p = n := by
  unfold Model.detect at h
  simp only at h
  split at h
  · cases h
  · obtain ⟨⟨rs, p1, m1, s1⟩, hs, h⟩ := ebind_ok.1 h
    obtain ⟨-, -, h⟩ := ebind_ok.1 h
    cases h
    unfold Model.select at hs
    obtain ⟨⟨p2, s2⟩, h1, hs⟩ := ebind_ok.1 hs
    obtain ⟨full, -, hs⟩ := ebind_ok.1 hs
    cases h1
    simp only at hs
    split at hs
    · obtain ⟨y, -, hs⟩ := ebind_ok.1 hs
      cases hs
      rfl
    · cases hs

theorem finish_unit (mode : PyVal) (stamps : List PyVal) (rows : List Row) (period : Nat) (model : ModelType)
    (sens : Int) (bv : BoundaryVersion) (g g' : Granularity) :
    (finish mode stamps rows period model sens bv g').map unsuggested = (finish mode stamps rows period model sens bv g).map unsuggested ∧
      (suggestedWindow period g' = suggestedWindow period g →
        finish mode stamps rows period model sens bv g' = finish mode stamps rows period model sens bv g) := by
  refine ⟨?_, fun h => by unfold finish; rw [h]⟩
  unfold finish
  split
  · rfl
  · split
    · rfl
    · cases getMarginsLast rows sens model bv with
      | error e => rfl
      | ok o => cases stamps.getLast? <;> rfl

/-- results of a run up to the suggested window -/
def runUp : Except Stop (List Item) → Except Stop (List Item) := fun x => x.map unsuggested

theorem runModel_unit (E : Env) (m : PyVal) (ht hv : Bool) (rows : List (PyVal × PyVal)) (mp : ModelParams) (p : Params)
    (g : Granularity) (iv : Option Int) (hs : SameStep mp.granularity mp.interval g iv)
    (h : paramPeriod p ≠ none ∨ SameGuess mp.granularity (mp.interval.getD 1).toNat g (iv.getD 1).toNat) :
    runUp (runModel E m ht hv rows (mp.unit g iv) p) = runUp (runModel E m ht hv rows mp p) ∧
    (((∃ n, paramPeriod p = some (n + 1)) ∨ defaultGranWindow g = defaultGranWindow mp.granularity) →
      runModel E m ht hv rows (mp.unit g iv) p = runModel E m ht hv rows mp p) := by
  unfold runModel
  cases hc : cellValues E hv rows with
  | error e => exact ⟨rfl, fun _ => rfl⟩
  | ok vs =>
    show runUp (Model.init E vs (mp.unit g iv) >>= _ : Except Stop _) = runUp (Model.init E vs mp >>= _ : Except Stop _) ∧
      (_ → (Model.init E vs (mp.unit g iv) >>= _ : Except Stop _) = (Model.init E vs mp >>= _ : Except Stop _))
    rw [init_unit]
    cases hi : Model.init E vs mp with
    | error s => exact ⟨rfl, fun _ => rfl⟩
    | ok M =>
      obtain ⟨-, -, m2, m3, -, -⟩ := init_fields hi
      have hd : (M.unit g (iv.getD 1).toNat).detect E mp.detector (paramPeriod p) (isLatest m) =
          M.detect E mp.detector (paramPeriod p) (isLatest m) := by
        refine detect_unit E M _ _ _ _ _ ?_ ?_
        · intro l
          rw [m2, m3]
          exact trigger_same E hs l
        · rw [m2, m3]
          exact h
      show runUp ((M.unit g (iv.getD 1).toNat).detect E mp.detector (paramPeriod p) (isLatest m) >>= _ : Except Stop _) =
          runUp (M.detect E mp.detector (paramPeriod p) (isLatest m) >>= _ : Except Stop _) ∧
        (_ → ((M.unit g (iv.getD 1).toNat).detect E mp.detector (paramPeriod p) (isLatest m) >>= _ : Except Stop _) =
          (M.detect E mp.detector (paramPeriod p) (isLatest m) >>= _ : Except Stop _))
      rw [hd]
      cases hr : M.detect E mp.detector (paramPeriod p) (isLatest m) with
      | error s => exact ⟨rfl, fun _ => rfl⟩
      | ok x =>
        obtain ⟨rs, per, md⟩ := x
        obtain ⟨f1, f2⟩ := finish_unit m (rowStamps ht rows) rs per md (paramSens p) (paramBoundary p) mp.granularity g
        refine ⟨?_, fun hw => ?_⟩
        · show runUp (lift (finish _ _ _ _ _ _ _ g)) = runUp (lift (finish _ _ _ _ _ _ _ mp.granularity))
          revert f1
          generalize finish m (rowStamps ht rows) rs per md (paramSens p) (paramBoundary p) g = a
          generalize finish m (rowStamps ht rows) rs per md (paramSens p) (paramBoundary p) mp.granularity = b
          intro f1
          cases a <;> cases b <;> simp only [Except.map, Except.ok.injEq, Except.error.injEq, reduceCtorEq] at f1
          · rw [f1]
          · exact congrArg Except.ok f1
        · show lift (finish _ _ _ _ _ _ _ g) = lift (finish _ _ _ _ _ _ _ mp.granularity)
          rw [f2 ?_]
          unfold suggestedWindow
          rcases hw with ⟨n, hn⟩ | hw
          · rw [hn] at hr
            cases detect_named hr
            rfl
          · rw [hw]

/-! ### requests -/

/-- a request and its counterpart in another unit -/
theorem predict_unit {E : Env} (hE : E.WF) (W : Wild) (d : Detector) (data : DataArg) {p q : Params} {s : Int}
    (hno : p "indices" = none) (hf : FiniteFill E data p) (hpq : OffUnit p q) (hp : StepOf p s) (hq : StepOf q s) (C : Prop)
    (hC : ∀ hasTs hasValue rows p' mp g iv, Parsed E hasTs hasValue rows p p' mp → SameStep mp.granularity mp.interval g iv →
      p "granularity" = some (.str mp.granularity.name) → q "granularity" = some (.str g.name) →
      (paramPeriod p' ≠ none ∨ SameGuess mp.granularity (mp.interval.getD 1).toNat g (iv.getD 1).toNat) ∧
      (C → (∃ n, paramPeriod p' = some (n + 1)) ∨ defaultGranWindow g = defaultGranWindow mp.granularity)) :
    (predict E W d data p).outcome.map unsuggested = (predict E W d data q).outcome.map unsuggested ∧
      (C → (predict E W d data p).outcome = (predict E W d data q).outcome) ∧
      (predict E W d data p).detector = (predict E W d data q).detector ∧
      OffUnit (predict E W d data p).params (predict E W d data q).params := by
  obtain ⟨e1, e2⟩ := parseArg_step E data hp hq hpq
  unfold predict
  rcases h1 : parseArg E data p with ⟨p', x⟩
  rcases h2 : parseArg E data q with ⟨q', y⟩
  rw [h1, h2] at e1 e2
  simp only at e1 e2
  cases e1 with
  | early c => exact ⟨rfl, fun _ => rfl, rfl, e2⟩
  | err e c => exact ⟨rfl, fun _ => rfl, rfl, e2⟩
  | ok h =>
    rename_i r r'
    obtain ⟨g, iv, ⟨a1, a2, a3, a4, a5⟩, hst, hg, hg'⟩ := h
    obtain ⟨rfl, hP⟩ := parseArg_ok h1
    obtain ⟨c1, c2⟩ := hC _ _ _ _ _ _ _ hP hst hg hg'
    simp only
    unfold afterParse
    have hmd : currentMode (d.update (some r'.code)).mode q' = currentMode (d.update (some r.code)).mode p' := by
      rw [a4]
      unfold currentMode
      rw [e2 "detect_mode" (by decide) (by decide)]
    rw [hmd, a4]
    cases hm : currentMode (d.update (some r.code)).mode p' with
    | none => exact ⟨rfl, fun _ => rfl, rfl, e2⟩
    | some m =>
      simp only
      have hr : runModel E m r'.hasTs r'.hasValue r'.rows r'.mp q' = runModel E m r.hasTs r.hasValue r.rows (r.mp.unit g iv) p' := by
        rw [a1, a2, a3, a5, ← runModel_congr (e2 "period" (by decide) (by decide)) (e2 "sensitivity" (by decide) (by decide))
          (e2 "boundaryVersion" (by decide) (by decide))]
      obtain ⟨u1, u2⟩ := runModel_unit E m r.hasTs r.hasValue r.rows r.mp p' g iv hst c1
      have hx : runModel E m r.hasTs r.hasValue r.rows r.mp p' ≠ .error .unmodelled := parsed_modelled hE hP hno hf m
      have u3 := fun c => u2 (c2 c)
      rw [hr]
      revert u1 u3 hx
      generalize runModel E m r.hasTs r.hasValue r.rows (r.mp.unit g iv) p' = a
      generalize runModel E m r.hasTs r.hasValue r.rows r.mp p' = b
      intro u1 hx u3
      rcases a with a | a <;> rcases b with b | b <;>
        simp only [runUp, Except.map, Except.ok.injEq, Except.error.injEq, reduceCtorEq] at u1
      · subst u1
        rcases a with a | _
        · exact ⟨rfl, fun _ => rfl, rfl, e2⟩
        · exact absurd rfl hx
      · exact ⟨congrArg Except.ok u1.symm, fun c => by rw [Except.ok.inj (u3 c)], rfl, e2⟩

/-- **C126** (any unit): two requests that say the same step, in any two of the units weekly, daily, hourly, minutely and secondly, and that
name a period, are the same: they end alike, answer alike but for the suggested window, leave the same detector, and leave params
that differ at most in the unit. If the period is not 0 the answers are equal. -/
theorem C126_step {E : Env} (hE : E.WF) (W : Wild) (d : Detector) (data : DataArg) {p q : Params} {s n : Int}
    (hno : p "indices" = none) (hf : FiniteFill E data p) (hpq : ∀ x, x ≠ "granularity" → x ≠ "customInterval" → p x = q x)
    (hp : StepOf p s) (hq : StepOf q s) (hn : NamesPeriod p n) :
    (predict E W d data p).outcome.map unsuggested = (predict E W d data q).outcome.map unsuggested ∧
      (n ≠ 0 → (predict E W d data p).outcome = (predict E W d data q).outcome) ∧
      (predict E W d data p).detector = (predict E W d data q).detector ∧
      ∀ x, x ≠ "granularity" → x ≠ "customInterval" → (predict E W d data p).params x = (predict E W d data q).params x :=
  predict_unit hE W d data hno hf hpq hp hq (n ≠ 0) (by
    intro hasTs hasValue rows p' mp g iv hP _ _ _
    obtain ⟨h0, hper⟩ := paramPeriod_named hP hn
    refine ⟨.inl (by rw [hper]; simp), fun hn0 => .inl ⟨n.toNat - 1, ?_⟩⟩
    rw [hper]
    congr 1
    omega)

/-- **C126** (minutes and seconds): a request in minutes and the request in seconds with the same step are the same, whether or not a period
is named. -/
theorem C126_minutes {E : Env} (hE : E.WF) (W : Wild) (d : Detector) (data : DataArg) {p q : Params} {s : Int}
    (hno : p "indices" = none) (hf : FiniteFill E data p) (hpq : ∀ x, x ≠ "granularity" → x ≠ "customInterval" → p x = q x)
    (hp : StepOf p s) (hq : StepOf q s) (hm : p "granularity" = some (.str "minutely")) (hs : q "granularity" = some (.str "secondly")) :
    (predict E W d data p).outcome = (predict E W d data q).outcome ∧
      (predict E W d data p).detector = (predict E W d data q).detector ∧
      ∀ x, x ≠ "granularity" → x ≠ "customInterval" → (predict E W d data p).params x = (predict E W d data q).params x := by
  obtain ⟨-, h1, h2⟩ := predict_unit hE W d data hno hf hpq hp hq True (by
    intro hasTs hasValue rows p' mp g iv hP hst hg hg'
    rw [hm] at hg
    rw [hs] at hg'
    have e1 : mp.granularity = .minutely := by
      generalize mp.granularity = x at hg
      cases x <;> first | rfl | exact absurd (PyVal.str.inj (Option.some.inj hg)) (by decide)
    have e2 : g = .secondly := by
      cases g <;> first | rfl | exact absurd (PyVal.str.inj (Option.some.inj hg')) (by decide)
    subst e2
    rw [e1] at hst ⊢
    exact ⟨.inr (guess_minutes hst), fun _ => .inr rfl⟩)
  exact ⟨h1 trivial, h2⟩

/-! ### the conditions are needed -/

/-- the period and the suggested window of an answer with one element -/
def windowOf (r : CallResult) : Option (Nat × Option Nat) :=
  match r.outcome with
  | .ok [it] => some (it.period, it.suggested)
  | _ => none

/-- a request with a unit and a number of units, and perhaps more -/
def unitParams (g : String) (n : Int) (o : List (String × PyVal)) : Params :=
  ((Params.ofList o).set "customInterval" (.int n)).set "granularity" (.str g)

theorem unitParams_step {g : String} {n sec : Int} (o : List (String × PyVal)) (h : unitSeconds g = some sec) (h0 : 0 < n) :
    StepOf (unitParams g n o) (sec * n) :=
  ⟨g, sec, n, by simp [unitParams, Params.set], h, rfl, .inr ⟨.int n, by simp [unitParams, Params.set], .int n, h0⟩⟩

theorem unitParams_other {g g' : String} {n n' : Int} (o : List (String × PyVal)) (x : String) (h1 : x ≠ "granularity")
    (h2 : x ≠ "customInterval") : unitParams g n o x = unitParams g' n' o x := by
  unfold unitParams
  rw [Params.set_ne _ _ h1, Params.set_ne _ _ h2, Params.set_ne _ _ h1, Params.set_ne _ _ h2]

/-- **C126** (period 0): the suggested window depends on the unit. -/
theorem C126_window : ∃ (E : Env) (rows : List (PyVal × PyVal)), E.WF ∧
    windowOf (predict E demoWild latestDetector (.frame true true rows) (unitParams "hourly" 1 [("period", .int 0)])) = some (0, some 169) ∧
    windowOf (predict E demoWild latestDetector (.frame true true rows) (unitParams "minutely" 60 [("period", .int 0)])) = some (0, some 1441) := by
  refine ⟨demoEnv, demoRows demoSeries 3600, demoEnv_WF, ?_, ?_⟩ <;> decide +kernel

/-- five times the same seven values -/
def sevens : List Int := (List.replicate 5 [0, 100, 20, 100, 0, 50, 90]).flatten

/-- **C126** (no period named): the period that is found depends on the unit. Points seven days apart are tried with period 7 if the request
says `daily`, although that is seven weeks. -/
theorem C126_guess : ∃ (E : Env) (rows : List (PyVal × PyVal)), E.WF ∧
    windowOf (predict E demoWild latestDetector (.frame true true rows) (unitParams "weekly" 1 [])) = some (0, some 13) ∧
    windowOf (predict E demoWild latestDetector (.frame true true rows) (unitParams "daily" 7 [])) = some (7, some 29) := by
  refine ⟨demoEnv, demoRows sevens 604800, demoEnv_WF, ?_, ?_⟩ <;> decide +kernel

/-- `C126_step`: a day and 24 hours; the answer has one element -/
example : windowOf (predict demoEnv demoWild latestDetector (.frame true true (demoRows sevens 86400)) (unitParams "hourly" 24 [("period", .int 7)])) =
    some (7, some 29) := by
  have h := (C126_step demoEnv_WF demoWild latestDetector (.frame true true (demoRows sevens 86400)) (n := 7) (s := 86400)
    (p := unitParams "daily" 1 [("period", .int 7)]) (q := unitParams "hourly" 24 [("period", .int 7)]) (by rfl)
    (.inl ⟨(by intro h; cases h), fun f h => by cases h⟩) (unitParams_other _)
    (unitParams_step (g := "daily") (n := 1) (sec := 86400) _ (by rfl) (by decide))
    (unitParams_step (g := "hourly") (n := 24) (sec := 3600) _ (by rfl) (by decide)) ⟨.int 7, by rfl, .int 7⟩).2.1 (by decide)
  have h1 : windowOf (predict demoEnv demoWild latestDetector (.frame true true (demoRows sevens 86400)) (unitParams "daily" 1 [("period", .int 7)])) =
    some (7, some 29) := by decide +kernel
  unfold windowOf at h1 ⊢
  rw [← h]
  exact h1

/-- `C126_minutes`: two minutes and 120 seconds, with a period to be found -/
example : okLen (predict demoEnv demoWild entireDetector (.frame true true (demoRows demoSeries 120)) (unitParams "secondly" 120 [])) = some 14 := by
  have h := (C126_minutes demoEnv_WF demoWild entireDetector (.frame true true (demoRows demoSeries 120)) (s := 120)
    (p := unitParams "minutely" 2 []) (q := unitParams "secondly" 120 []) (by rfl)
    (.inl ⟨(by intro h; cases h), fun f h => by cases h⟩) (unitParams_other _)
    (unitParams_step (g := "minutely") (n := 2) (sec := 60) _ (by rfl) (by decide))
    (unitParams_step (g := "secondly") (n := 120) (sec := 1) _ (by rfl) (by decide)) (by rfl) (by rfl)).1
  have h1 : okLen (predict demoEnv demoWild entireDetector (.frame true true (demoRows demoSeries 120)) (unitParams "minutely" 2 [])) = some 14 := by
    decide +kernel
  unfold okLen at h1 ⊢
  rw [← h]
  exact h1

end Verif
