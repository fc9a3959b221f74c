import Verif.Props.FillValues

/-!
# Fill methods: strict neighbourhoods, errors, reports (C94–C97)
-/

namespace Verif

open Spec

/-! ### 'raise' and 'fill_with_none' -/

/-- Without 'try_best' the loop sees only observed values iff the `n` positions are all observed, and then it is the same loop. -/
theorem walk_strict {P : FillProc} (h : P.Good) (hn : P.need = true) {g : List (Option ℚ)} (hk : Keeps P.obs g) (hl : g.length = P.allCount)
    {fw : Bool} {sp : Int} {fuel n : Nat} {i : Int} (hf : (0 < sp ∧ (g.length : Int) ≤ i + fuel) ∨ (sp < 0 ∧ i < fuel)) :
    ((none ∉ walk g P.info false false fw sp fuel n i ∧ n ≤ (walk g P.info false false fw sp fuel n i).length) ↔
      ∀ k < n, ∃ a ∈ P.obs, (a.1 : Int) = i + k * sp) ∧
    ((∀ k < n, ∃ a ∈ P.obs, (a.1 : Int) = i + k * sp) →
      walk g P.info false false fw sp fuel n i = walk g P.info false true fw sp fuel n i) := by
  have inside : ∀ a ∈ P.obs, a.1 < g.length := fun a ha => by
    rw [hl]; exact h.inside a.1 (List.of_mem_zip (b := a.2) ha).1
  have first : ∀ n : Nat, (∀ k < n + 1, ∃ a ∈ P.obs, (a.1 : Int) = i + (k : Int) * sp) → ∃ a ∈ P.obs, (a.1 : Int) = i := by
    intro n hh
    obtain ⟨a, ha, e⟩ := hh 0 (by omega)
    exact ⟨a, ha, by simpa using e⟩
  induction fuel generalizing n i with
  | zero =>
    cases n with
    | zero => simp [walk]
    | succ n =>
      have : ¬ ∀ k < n + 1, ∃ a ∈ P.obs, (a.1 : Int) = i + (k : Int) * sp := by
        intro hh
        obtain ⟨a, ha, e⟩ := first n hh
        have := inside a ha
        omega
      exact ⟨⟨fun hh => absurd hh.2 (by simp [walk]), fun hh => absurd hh this⟩, fun hh => absurd hh this⟩
  | succ fuel ih =>
    cases n with
    | zero => simp [walk]
    | succ n =>
      rw [walk, walk]
      split
      · rename_i hi
        obtain ⟨i, rfl⟩ := Int.eq_ofNat_of_zero_le hi.1
        rw [Int.toNat_natCast]
        rcases walk_at h hn hk hl (show i < g.length by omega) with ⟨v, hv, h1, h2⟩ | ⟨m, k, h1, h2, h3, t, h4⟩
        · rw [h1]
          simp only [Nat.lt_irrefl, and_false, if_false, false_and, Bool.false_eq_true]
          rw [h2]
          simp only [reduceCtorEq, and_false, if_false]
          obtain ⟨i1, i2⟩ := ih (n := n) (i := (i : Int) + sp) (by omega) (by
            intro n hh
            obtain ⟨a, ha, e⟩ := hh 0 (by omega)
            exact ⟨a, ha, by simpa using e⟩)
          have shift : (∀ k < n + 1, ∃ a ∈ P.obs, (a.1 : Int) = (i : Int) + (k : Int) * sp) ↔
              ∀ k < n, ∃ a ∈ P.obs, (a.1 : Int) = (i : Int) + sp + (k : Int) * sp := by
            constructor
            · intro hh k hk
              obtain ⟨a, ha, e⟩ := hh (k + 1) (by omega)
              exact ⟨a, ha, by rw [e]; push_cast; ring⟩
            · intro hh k hk
              cases k with
              | zero => exact ⟨_, hv, by simp⟩
              | succ k =>
                obtain ⟨a, ha, e⟩ := hh k (by omega)
                exact ⟨a, ha, by rw [e]; push_cast; ring⟩
          rw [shift]
          refine ⟨?_, fun hh => by rw [i2 hh]⟩
          rw [← i1]
          simp
        · have hno : ¬ ∀ k < n + 1, ∃ a ∈ P.obs, (a.1 : Int) = (i : Int) + (k : Int) * sp := by
            intro hh
            obtain ⟨a, ha, e⟩ := first n hh
            have := h3 a ha
            omega
          rw [h4]
          simp only [true_and, if_pos (show 0 < k - i by omega)]
          exact ⟨⟨fun hh => absurd (List.mem_cons_self ..) hh.1, fun hh => absurd hh hno⟩, fun hh => absurd hh hno⟩
      · rename_i hi
        have hno : ¬ ∀ k < n + 1, ∃ a ∈ P.obs, (a.1 : Int) = i + (k : Int) * sp := by
          intro hh
          obtain ⟨a, ha, e⟩ := first n hh
          have := inside a ha
          omega
        exact ⟨⟨fun hh => absurd hh.2 (by simp), fun hh => absurd hh hno⟩, fun hh => absurd hh hno⟩

theorem allSeen_iff {obs : List (Nat × ℚ)} {p T bn fn : Nat} : AllSeen obs p T bn fn ↔
    (∀ k < bn, ∃ a ∈ obs, (a.1 : Int) = ((p : Int) - T) + k * (-(T : Int))) ∧
      ∀ k < fn, ∃ a ∈ obs, (a.1 : Int) = ((p + T : Nat) : Int) + k * (T : Int) := by
  unfold AllSeen
  refine and_congr (forall₂_congr fun k _ => exists_congr fun a => and_congr_right fun _ => ?_)
    (forall₂_congr fun k _ => exists_congr fun a => and_congr_right fun _ => ?_)
  · constructor
    · intro e
      have : ((a.1 + (k + 1) * T : Nat) : Int) = p := by exact_mod_cast e
      push_cast at this
      linarith
    · intro e
      have : ((a.1 + (k + 1) * T : Nat) : Int) = p := by push_cast; linarith
      exact_mod_cast this
  · constructor
    · intro e
      rw [e]; push_cast; ring
    · intro e
      have : (a.1 : Int) = ((p + (k + 1) * T : Nat) : Int) := by rw [e]; push_cast; ring
      exact_mod_cast this

/-- with 'raise' or 'fill_with_none' a method sees the neighbours if they are all observed -/
theorem look_strict {lev : Bool} (hlev : lev = false) {short : OnShort} (hsh : short = .raise ∨ short = .none) {P : FillProc} (h : P.Good)
    (hn : P.need = true) {g : List (Option ℚ)} (hk : Keeps P.obs g) (hl : g.length = P.allCount) {T : Nat} (hT : 0 < T) {bn fn p j : Nat}
    (hp : p < P.allCount) :
    (AllSeen P.obs p T bn fn → lookAround P lev short T bn fn p j g =
      .ok (some (lastN bn (before (inPhase P.obs p T) p), (after (inPhase P.obs p T) p).take fn))) ∧
    (¬ AllSeen P.obs p T bn fn → lookAround P lev short T bn fn p j g = if short = .raise then .error .exception else .ok none) := by
  subst hlev
  have hbest : decide (short = .tryBest) = false := by rcases hsh with rfl | rfl <;> rfl
  have hcond : ¬ (false = false ∧ short = .tryBest ∧ T = 1) := by rcases hsh with rfl | rfl <;> simp
  obtain ⟨b1, b2⟩ := walk_strict h hn hk hl (fw := false) (sp := -(T : Int)) (fuel := g.length + 1) (n := bn) (i := (p : Int) - T)
    (.inr ⟨by omega, by omega⟩)
  obtain ⟨f1, f2⟩ := walk_strict h hn hk hl (fw := true) (sp := T) (fuel := g.length + 1) (n := fn) (i := ((p + T : Nat) : Int))
    (.inl ⟨by omega, by omega⟩)
  have hsee := allSeen_iff (obs := P.obs) (p := p) (T := T) (bn := bn) (fn := fn)
  have e1 := walk_behind h hn hk hl hT (fuel := g.length + 1) (n := bn) (i := (p : Int) - T) (by omega) (by omega)
  have e2 := walk_ahead h hn hk hl hT (fuel := g.length + 1) (n := fn) (i := p + T) (by omega)
  have hlook : lookAround P false short T bn fn p j g =
      if (none ∈ walk g P.info false false false (-(T : Int)) (g.length + 1) bn ((p : Int) - T) ∨
        (walk g P.info false false false (-(T : Int)) (g.length + 1) bn ((p : Int) - T)).length < bn ∨
        none ∈ walk g P.info false false true T (g.length + 1) fn ((p + T : Nat) : Int) ∨
        (walk g P.info false false true T (g.length + 1) fn ((p + T : Nat) : Int)).length < fn) then
        (if short = .raise then .error .exception else .ok none)
      else .ok (some (((walk g P.info false false false (-(T : Int)) (g.length + 1) bn ((p : Int) - T)).filterMap id).reverse,
        (walk g P.info false false true T (g.length + 1) fn ((p + T : Nat) : Int)).filterMap id)) := by
    unfold lookAround
    simp only [if_neg hcond, hbest, periodical, Bool.false_eq_true, if_false, if_true, List.mem_reverse, List.length_reverse,
      List.filterMap_reverse]
    push_cast
    rcases hsh with rfl | rfl <;> simp
  rw [hlook]
  constructor
  · intro hs
    obtain ⟨s1, s2⟩ := hsee.1 hs
    obtain ⟨c1, c2⟩ := b1.2 s1
    obtain ⟨c3, c4⟩ := f1.2 s2
    rw [if_neg (by push Not; exact ⟨c1, c2, c3, c4⟩), b2 s1, f2 s2, e1, e2, behind_before hT]
    push_cast
    rw [ahead_after hT, lastN_eq]
  · intro hs
    rw [if_pos]
    by_contra hc
    push Not at hc
    exact hs (hsee.2 ⟨b1.1 ⟨hc.1, hc.2.1⟩, f1.1 ⟨hc.2.2.1, hc.2.2.2⟩⟩)

theorem allSeen_nearby {obs : List (Nat × ℚ)} {p T bn fn : Nat} (hT : 0 < T) (hs : AllSeen obs p T bn fn) (h0 : 0 < bn + fn) :
    nearby (inPhase obs p T) p bn fn ≠ [] := by
  intro e
  have e := congrArg List.length e
  unfold nearby lastN at e
  simp only [List.length_append, List.length_drop, List.length_take, List.length_nil] at e
  rcases Nat.eq_zero_or_pos bn with hb | hb
  · obtain ⟨a, ha, e'⟩ := hs.2 0 (by omega)
    have : a.2 ∈ after (inPhase obs p T) p := List.mem_map.2 ⟨a, List.mem_filter.2 ⟨List.mem_filter.2 ⟨ha, by
      simp only [decide_eq_true_eq]; rw [e', Nat.add_mul_mod_self_right]⟩, by simp only [decide_eq_true_eq]; omega⟩, rfl⟩
    have := List.length_pos_of_mem this
    omega
  · obtain ⟨a, ha, e'⟩ := hs.1 0 hb
    have : a.2 ∈ before (inPhase obs p T) p := List.mem_map.2 ⟨a, List.mem_filter.2 ⟨List.mem_filter.2 ⟨ha, by
      simp only [decide_eq_true_eq]; rw [← e', Nat.add_mul_mod_self_right]⟩, by simp only [decide_eq_true_eq]; omega⟩, rfl⟩
    have := List.length_pos_of_mem this
    omega

theorem basicFunc_strict {P : FillProc} (h : P.Good) (hn : P.need = true) {g : List (Option ℚ)} (hk : Keeps P.obs g)
    (hl : g.length = P.allCount) {a : FillArgs} {short : OnShort} (hsh : short = .raise ∨ short = .none) {period T : Nat}
    (hper : a.periodOf = .ok period) (hph : Phase a T) (hlev : a.leverage = false) {bn : Nat}
    (hbn : a.backwardN = some bn) {p j : Nat} (hp : p < P.allCount) (op : Reduction) (ws : Option (List ℚ)) :
    (AllSeen P.obs p T bn (a.forwardN.getD 0) → basicFunc P a short period op ws p j g =
      (reduceWith op ws bn (a.forwardN.getD 0) (lastN bn (before (inPhase P.obs p T) p))
        ((after (inPhase P.obs p T) p).take (a.forwardN.getD 0))).map some) ∧
    (¬ AllSeen P.obs p T bn (a.forwardN.getD 0) → basicFunc P a short period op ws p j g =
      if short = .raise then .error (.err .exception) else .ok none) := by
  obtain ⟨e, hT⟩ := hph.eff hper
  obtain ⟨l1, l2⟩ := look_strict hlev hsh h hn hk hl hT (bn := bn) (fn := a.forwardN.getD 0) (j := j) hp
  unfold basicFunc
  rw [hbn]
  simp only
  rw [e]
  refine ⟨fun hs => by rw [l1 hs], fun hs => ?_⟩
  rw [l2 hs]
  rcases hsh with rfl | rfl <;> simp

theorem loop_length {spline : SplineOracle} {P : FillProc} (hg : P.Good) {a : FillArgs} {short : OnShort} {period : Nat} {m : FillMethod}
    {onErr : OnError} (hm : m ≠ .linearSeg ∧ m ≠ .splineSeg) {r : List (Option ℚ)}
    (hr : fillLoop (stepMethod spline P a short period m) onErr P.values P.allCount P.allCount 0 0 P.indices
      (valuesToFill P.allCount P.indices P.values) = .ok r) : r.length = P.allCount := by
  refine ((fillLoop_spec (f := stepMethod spline P a short period m) (onErr := onErr) (values := P.values) (n := P.allCount)
    (fun _ _ => True) (fun _ _ _ => True) (fuel := P.allCount) (i := 0) (j := 0) (idx := P.indices)
    (full := valuesToFill P.allCount P.indices P.values) (by omega) (by omega) (by simpa using hg.covers) hg.toFill.1 trivial
    (by simp) (by
      intro p _ hp hpm g _ _
      refine ⟨stepMethod_no_hang, by simp, ?_, by simp⟩
      intro l hl
      exfalso
      cases m <;> simp [stepMethod, except_map_ok] at hl hm
      all_goals split at hl <;> simp [except_map_ok] at hl)).2 r hr).1

theorem Plain.method {method : String} {a : FillArgs} (hm : Plain method a) : ∃ m, FillMethod.ofName method = some m ∧
    (m ≠ .linearSeg ∧ m ≠ .splineSeg) ∧
    ∀ spline P onErr short period, fillWith spline P m a onErr short period =
      fillLoop (stepMethod spline P a short period m) onErr P.values P.allCount P.allCount 0 0 P.indices
        (valuesToFill P.allCount P.indices P.values) := by
  rcases hm with rfl | rfl | rfl | ⟨rfl, -⟩
  · exact ⟨.min, rfl, by simp, fun _ _ _ _ _ => rfl⟩
  · exact ⟨.max, rfl, by simp, fun _ _ _ _ _ => rfl⟩
  · exact ⟨.median, rfl, by simp, fun _ _ _ _ _ => rfl⟩
  · exact ⟨.average, rfl, by simp, fun _ _ _ _ _ => rfl⟩

/-- **C94** ('fill_with_none'). A missing position whose neighbours at the given distances are all observed gets the minimum, maximum, median
or mean of these; every other one stays empty. The call returns. -/
theorem C94_none {spline : SplineOracle} {idx : List Int} {vs : List ℚ} {P : FillProc} (hne : idx ≠ [])
    (hP : FillProc.init idx vs = .ok P) {method : String} {a : FillArgs} (hm : Plain method a) {onErr : OnError} (he : a.onError = .ok onErr)
    (hs : a.ifShort = some "fill_with_none") (hlev : a.leverage = false) {period T bn : Nat} (hper : a.periodOf = .ok period)
    (hph : Phase a T) (hbn : a.backwardN = some bn) (h0 : 0 < bn + a.forwardN.getD 0) :
    ∃ r, P.fillUp spline method a = .ok r ∧ ∀ l tags, r = some (l, tags) → Gapped (observations idx vs) l.length ∧
      ∀ p < l.length, Missing (observations idx vs) p →
      (AllSeen (observations idx vs) p T bn (a.forwardN.getD 0) → ∃ v, l[p]? = some (some v) ∧
        Reduces method (nearby (inPhase (observations idx vs) p T) p bn (a.forwardN.getD 0)) v) ∧
      (¬ AllSeen (observations idx vs) p T bn (a.forwardN.getD 0) → l[p]? = some none) := by
  obtain ⟨hg, -, -⟩ := FillProc.init_good hne hP
  rw [← obs_eq hne hP]
  have hshort : a.onShort = .ok .none := by unfold FillArgs.onShort; rw [hs]; rfl
  unfold FillProc.fillUp
  rw [he, hshort, hper]
  by_cases hn : P.need = false
  · rw [if_pos hn]
    exact ⟨none, rfl, by simp⟩
  rw [if_neg hn]
  have hn : P.need = true := by simpa using hn
  simp only
  obtain ⟨m, hmm, hms, hloop⟩ := hm.method
  rw [hmm]
  simp only
  rw [hloop]
  have hT := (hph.eff hper).2
  obtain ⟨r, hr, hq⟩ := loop_one hg (f := stepMethod spline P a .none period m) (onErr := onErr)
    (fun p o => (AllSeen P.obs p T bn (a.forwardN.getD 0) → ∃ v, o = some v ∧
        Reduces method (nearby (inPhase P.obs p T) p bn (a.forwardN.getD 0)) v) ∧
      (¬ AllSeen P.obs p T bn (a.forwardN.getD 0) → o = none)) (by
    intro p hp hpm g hk hgl
    by_cases hsee : AllSeen P.obs p T bn (a.forwardN.getD 0)
    · obtain ⟨op, ws, h1, hred⟩ := reduceWith_plain hm
      obtain ⟨v, h2, h3⟩ := hred bn (a.forwardN.getD 0) _ _ (allSeen_nearby hT hsee h0)
      refine ⟨some v, ?_, fun _ => ⟨v, rfl, h3⟩, fun x => absurd hsee x⟩
      rw [h1 _ _ _ _ _ _ _ _ hmm, (basicFunc_strict hg hn hk hgl (.inr rfl) hper hph hlev hbn hp _ _).1 hsee, h2]
      rfl
    · obtain ⟨op, ws, h1, hred⟩ := reduceWith_plain hm
      refine ⟨none, ?_, fun x => absurd x hsee, fun _ => rfl⟩
      rw [h1 _ _ _ _ _ _ _ _ hmm, (basicFunc_strict hg hn hk hgl (.inr rfl) hper hph hlev hbn hp _ _).2 hsee]
      rfl)
  rw [hr]
  refine ⟨_, rfl, ?_⟩
  intro l tags e
  cases e
  have hlen := loop_length hg hms hr
  refine ⟨hlen ▸ hg.gapped, fun p hp hpm => ?_⟩
  obtain ⟨o, ho, hq⟩ := hq p (by omega) ((hg.missing_iff p).1 hpm)
  refine ⟨fun hsee => ?_, fun hsee => by rw [ho, hq.2 hsee]⟩
  obtain ⟨v, rfl, q⟩ := hq.1 hsee
  exact ⟨v, ho, q⟩

theorem fillLoop_error {f : Nat → Nat → List (Option ℚ) → Except FillStop Fill} {values : List ℚ} {n : Nat}
    {fuel i j : Nat} {idx : List Nat} {full : List (Option ℚ)} (hlast : i < n → n - 1 ∈ idx) {s : FillStop}
    (h : fillLoop f .raise values n fuel i j idx full = .error s) : s = .hang ∨ ∃ p j g, f p j g = .error s := by
  induction fuel generalizing i j idx full with
  | zero =>
    unfold fillLoop at h
    split at h
    · cases h
    · cases h; exact .inl rfl
  | succ fuel ih =>
    unfold fillLoop at h
    split at h
    · cases h
    · rename_i hi
      have hl := hlast (by omega)
      cases idx with
      | nil => simp at hl
      | cons k t =>
        simp only at h
        split at h
        · rename_i hk
          subst hk
          refine ih ?_ h
          intro hk
          rcases List.mem_cons.1 hl with e | e
          · omega
          · exact e
        · split at h
          · cases h; exact .inl rfl
          · split at h
            · exact ih (fun _ => hl) h
            · split at h
              · cases h; exact .inl rfl
              · exact ih (fun _ => hl) h
            · rename_i hf
              cases h
              exact .inr ⟨_, _, _, hf⟩
            · rename_i hf
              cases h
              exact .inr ⟨_, _, _, by assumption⟩

theorem look_raise {P : FillProc} {lev : Bool} {short : OnShort} (hsh : short = .raise) {period bn fn i j : Nat} {full : List (Option ℚ)} :
    (∀ e, lookAround P lev short period bn fn i j full = .error e → e = .exception) ∧
    ∀ b f, lookAround P lev short period bn fn i j full = .ok (some (b, f)) → bn + fn ≤ b.length + f.length := by
  unfold lookAround
  simp only
  generalize (if lev = false ∧ short = .tryBest ∧ period = 1 then
        (((P.values.take j).drop (j - min bn j)).map some, ((P.values.drop j).take fn).map some)
      else (periodical full P.info lev (short = .tryBest) i bn period false, periodical full P.info lev (short = .tryBest) i fn period true)) = xy
  subst hsh
  split
  · simp
  · rename_i hc
    push Not at hc
    obtain ⟨c1, c2, c3, c4⟩ := hc
    refine ⟨by simp, fun b f e => ?_⟩
    cases e
    rw [filterMap_whole c1, filterMap_whole c3]
    omega

/-- **C94** ('raise'). The call raises an Exception iff some missing position has a neighbour at the given distances that is not observed;
otherwise every missing position gets the minimum, maximum, median or mean of its neighbours. -/
theorem C94_raise {spline : SplineOracle} {idx : List Int} {vs : List ℚ} {P : FillProc} (hne : idx ≠ [])
    (hP : FillProc.init idx vs = .ok P) {method : String} {a : FillArgs} (hm : Plain method a)
    (he : a.ifException = none ∨ a.ifException = some "raise")
    (hs : a.ifShort = some "raise") (hlev : a.leverage = false) {period T bn : Nat} (hper : a.periodOf = .ok period)
    (hph : Phase a T) (hbn : a.backwardN = some bn) (h0 : 0 < bn + a.forwardN.getD 0) :
    P.fillUp spline method a = .ok none ∨
    (∃ n, Gapped (observations idx vs) n ∧ (∃ p < n, Missing (observations idx vs) p ∧
        ¬ AllSeen (observations idx vs) p T bn (a.forwardN.getD 0)) ∧ P.fillUp spline method a = .error (.err .exception)) ∨
    ∃ l tags, P.fillUp spline method a = .ok (some (l, tags)) ∧ Gapped (observations idx vs) l.length ∧
      ∀ p < l.length, Missing (observations idx vs) p → AllSeen (observations idx vs) p T bn (a.forwardN.getD 0) ∧ ∃ v,
        l[p]? = some (some v) ∧ Reduces method (nearby (inPhase (observations idx vs) p T) p bn (a.forwardN.getD 0)) v := by
  obtain ⟨hg, -, -⟩ := FillProc.init_good hne hP
  rw [← obs_eq hne hP]
  have hshort : a.onShort = .ok .raise := by unfold FillArgs.onShort; rw [hs]; rfl
  have herr : a.onError = .ok .raise := by unfold FillArgs.onError; rcases he with he | he <;> rw [he] <;> rfl
  unfold FillProc.fillUp
  rw [herr, hshort, hper]
  by_cases hn : P.need = false
  · rw [if_pos hn]
    exact .inl rfl
  right
  rw [if_neg hn]
  have hn : P.need = true := by simpa using hn
  simp only
  obtain ⟨m, hmm, hms, hloop⟩ := hm.method
  rw [hmm]
  simp only
  rw [hloop]
  have hT := (hph.eff hper).2
  by_cases hall : ∀ p < P.allCount, p ∉ P.indices → AllSeen P.obs p T bn (a.forwardN.getD 0)
  · right
    obtain ⟨r, hr, hq⟩ := loop_one hg (f := stepMethod spline P a .raise period m) (onErr := .raise)
      (fun p o => ∃ v, o = some v ∧ Reduces method (nearby (inPhase P.obs p T) p bn (a.forwardN.getD 0)) v) (by
      intro p hp hpm g hk hgl
      have hsee := hall p hp hpm
      obtain ⟨op, ws, h1, hred⟩ := reduceWith_plain hm
      obtain ⟨v, h2, h3⟩ := hred bn (a.forwardN.getD 0) _ _ (allSeen_nearby hT hsee h0)
      refine ⟨some v, ?_, v, rfl, h3⟩
      rw [h1 _ _ _ _ _ _ _ _ hmm, (basicFunc_strict hg hn hk hgl (.inl rfl) hper hph hlev hbn hp _ _).1 hsee, h2]
      rfl)
    have hlen := loop_length hg hms hr
    rw [hr]
    refine ⟨r, _, rfl, hlen ▸ hg.gapped, fun p hp hpm => ?_⟩
    have hpm' := (hg.missing_iff p).1 hpm
    obtain ⟨o, ho, v, rfl, q⟩ := hq p (by omega) hpm'
    exact ⟨hall p (by omega) hpm', v, ho, q⟩
  · left
    push Not at hall
    obtain ⟨p, hp, hpm, hsee⟩ := hall
    refine ⟨P.allCount, hg.gapped, ⟨p, hp, (hg.missing_iff p).2 hpm, hsee⟩, ?_⟩
    have hspec := fillLoop_spec (f := stepMethod spline P a .raise period m) (onErr := .raise) (values := P.values) (n := P.allCount)
      (fun _ g => Keeps P.obs g) (fun p _ _ => AllSeen P.obs p T bn (a.forwardN.getD 0)) (fuel := P.allCount) (i := 0) (j := 0)
      (idx := P.indices) (full := valuesToFill P.allCount P.indices P.values) (by omega) (by omega) (by simpa using hg.covers)
      hg.toFill.1 hg.toFill.2.1 (fun _ _ _ hg => hg) (by
        intro p _ hp hpm g hk hgl
        rw [Nat.zero_add]
        obtain ⟨op, ws, h1, hred⟩ := reduceWith_plain hm
        refine ⟨stepMethod_no_hang, fun v hv => ⟨keeps_set hk hpm v, ?_⟩, fun l hl => ?_, by simp⟩
        · by_contra hns
          rw [h1 _ _ _ _ _ _ _ _ hmm, (basicFunc_strict hg hn hk hgl (.inl rfl) hper hph hlev hbn hp _ _).2 hns] at hv
          cases hv
        · exfalso
          rw [h1 _ _ _ _ _ _ _ _ hmm, except_map_ok] at hl
          obtain ⟨o, -, e⟩ := hl
          cases e)
    cases hr : fillLoop (stepMethod spline P a .raise period m) .raise P.values P.allCount P.allCount 0 0 P.indices
        (valuesToFill P.allCount P.indices P.values) with
    | ok r =>
      obtain ⟨v, -, hq⟩ := (hspec.2 r hr).2.2 p (by omega) hp hpm
      exact absurd hq hsee
    | error s =>
      rcases fillLoop_error (fun _ => hg.last) hr with rfl | ⟨p, j, g, hf⟩
      · exact absurd hr hspec.1
      · obtain ⟨op, ws, h1, hred⟩ := reduceWith_plain hm
        rw [h1 _ _ _ _ _ _ _ _ hmm, except_map_error] at hf
        suffices s = .err .exception by rw [this]; rfl
        unfold basicFunc at hf
        rw [hbn] at hf
        simp only at hf
        split at hf
        · rename_i e hlk
          cases hf
          rw [(look_raise rfl).1 e hlk]
        · cases hf
        · rename_i b f hlk
          exfalso
          rw [except_map_error] at hf
          have hnn : b ++ f ≠ [] := by
            intro e
            have e := congrArg List.length e
            rw [List.length_append, List.length_nil] at e
            have := (look_raise rfl).2 b f hlk
            omega
          obtain ⟨v, h2, -⟩ := hred bn (a.forwardN.getD 0) _ _ hnn
          rw [h2] at hf
          cases hf

/-! ### linear interpolation by segments -/

theorem rank_last {P : FillProc} (h : P.Good) {p : Nat} {a : Nat × ℚ} (ha : LastBefore P.obs p a) :
    0 < rankOf P.indices p ∧ P.values[rankOf P.indices p - 1]? = some a.2 := by
  obtain ⟨k, hk, rfl⟩ := List.mem_iff_getElem.1 ha.1
  have hkl : k < P.indices.length := by
    unfold FillProc.obs at hk; rw [List.length_zip] at hk; omega
  have hkv : k < P.values.length := by rw [← h.len]; exact hkl
  have e1 : (P.obs[k]).1 = P.indices[k] := by simp [FillProc.obs]
  have e2 : (P.obs[k]).2 = P.values[k] := by simp [FillProc.obs]
  have hr : rankOf P.indices p = k + 1 := by
    apply rankOf_getElem h.sorted hkl
    · rw [← e1]; exact ha.2.1
    · intro x hx hxp
      obtain ⟨w, hw⟩ := mem_zip_of_mem h.len hx
      rw [← e1]
      exact ha.2.2 _ hw hxp
  rw [hr, e2]
  exact ⟨by omega, by simp [hkv]⟩

theorem rank_first {P : FillProc} (h : P.Good) {p : Nat} (hm : p ∉ P.indices) {b : Nat × ℚ} (hb : FirstAfter P.obs p b) :
    P.values[rankOf P.indices p]? = some b.2 := by
  have e := zip_after h.sorted h.len hm
  obtain ⟨k, hk, rfl⟩ := List.mem_iff_getElem.1 hb.1
  have hkl : k < P.indices.length := by
    unfold FillProc.obs at hk; rw [List.length_zip] at hk; omega
  have hkv : k < P.values.length := by rw [← h.len]; exact hkl
  have e1 : (P.obs[k]).1 = P.indices[k] := by simp [FillProc.obs]
  have e2 : (P.obs[k]).2 = P.values[k] := by simp [FillProc.obs]
  have hk0 : k ≠ 0 := by
    rintro rfl
    have h0 := hb.2.1
    rw [e1] at h0
    obtain ⟨q, hq, hq'⟩ := List.mem_iff_getElem.1 h.head
    rcases Nat.eq_zero_or_pos q with rfl | hq0
    · omega
    · have := List.pairwise_iff_getElem.1 h.sorted 0 q hkl hq hq0
      omega
  have hr : rankOf P.indices p = k - 1 + 1 := by
    have hlt := List.pairwise_iff_getElem.1 h.sorted (k - 1) k (by omega) hkl (by omega)
    apply rankOf_getElem h.sorted (by omega)
    · by_contra hc
      have hne : P.indices[k - 1] ≠ p := fun e => hm (e ▸ List.getElem_mem _)
      obtain ⟨w, hw⟩ := mem_zip_of_mem h.len (List.getElem_mem (show k - 1 < P.indices.length by omega))
      have := hb.2.2 _ hw (by simp only; omega)
      rw [e1] at this
      simp only at this
      omega
    · intro x hx hxp
      obtain ⟨q, hq, rfl⟩ := List.mem_iff_getElem.1 hx
      rcases Nat.lt_or_ge (k - 1) q with hkq | hkq
      · have h1 : P.indices[k] ≤ P.indices[q] := by
          rcases Nat.lt_or_ge k q with h' | h'
          · exact le_of_lt (List.pairwise_iff_getElem.1 h.sorted k q hkl hq h')
          · have : q = k := by omega
            subst this; exact le_refl _
        have h2 := hb.2.1
        rw [e1] at h2
        omega
      · rcases Nat.lt_or_ge q (k - 1) with h' | h'
        · exact le_of_lt (List.pairwise_iff_getElem.1 h.sorted q (k - 1) hq (by omega) h')
        · have : q = k - 1 := by omega
          subst this; exact le_refl _
  rw [hr, e2, show k - 1 + 1 = k by omega]
  simp [hkv]

theorem fillLoop_noErr {f : Nat → Nat → List (Option ℚ) → Except FillStop Fill} (hf : ∀ p j g e, f p j g ≠ .error (.err e)) {onErr : OnError}
    {values : List ℚ} {n fuel i j : Nat} {idx : List Nat} {full : List (Option ℚ)} :
    fillLoop f onErr values n fuel i j idx full = fillLoop f .raise values n fuel i j idx full := by
  induction fuel generalizing i j idx full with
  | zero => unfold fillLoop; rfl
  | succ fuel ih =>
    unfold fillLoop
    split
    · rfl
    · cases idx with
      | nil => rfl
      | cons k t =>
        simp only [ih]
        split
        · rfl
        · split
          · rfl
          · cases hfv : f i j full with
            | ok v => cases v <;> rfl
            | error s =>
              cases s with
              | err e => exact absurd hfv (hf _ _ _ _)
              | hang => rfl
              | unmodelled => rfl

/-- **C95**. Interpolation gap by gap ('linear_seg') gives the same series as interpolation of the whole ('linear'). -/
theorem C95_linear {spline : SplineOracle} (hsp : SplineLaws spline) {idx : List Int} {vs : List ℚ} {P : FillProc} (hne : idx ≠ [])
    (hP : FillProc.init idx vs = .ok P) (a : FillArgs) : P.fillUp spline "linear_seg" a = P.fillUp spline "linear" a := by
  obtain ⟨hg, -, -⟩ := FillProc.init_good hne hP
  unfold FillProc.fillUp
  by_cases hn : P.need = false
  · rw [if_pos hn, if_pos hn]
  rw [if_neg hn, if_neg hn]
  have hn : P.need = true := by simpa using hn
  split
  · rfl
  · rfl
  · rfl
  · rename_i onErr short period e1 e2 e3
    have m1 : FillMethod.ofName "linear_seg" = some .linearSeg := rfl
    have m2 : FillMethod.ofName "linear" = some .linear := rfl
    rw [m1, m2]
    simp only
    suffices h : fillWith spline P .linearSeg a onErr short period = .ok (P.fillLinear.map some) by
      rw [h]; rfl
    show fillLoop (stepMethod spline P a short period .linearSeg) onErr P.values P.allCount P.allCount 0 0 P.indices
      (valuesToFill P.allCount P.indices P.values) = _
    rw [fillLoop_noErr (by simp [stepMethod])]
    obtain ⟨c1, c2⟩ := fillLinear_spec hg
    have key := step_fill hsp hg hn (m := .linearSeg) (a := a) (onErr := .raise) (short := short) (period := period) (.inl (by simp))
      (fun _ => True) (fun p _ v => (P.fillLinear.map some)[p]? = some v) trivial
      (by intro p _ _ g _ _ v hv; simp [stepMethod] at hv)
      (by
        intro p hp hpm hst g _ _ l hl
        refine ⟨trivial, fun t ht => ?_⟩
        simp only [stepMethod, Except.ok.injEq, Fill.many.injEq] at hl
        obtain ⟨k, hk, k1, k2, k3⟩ := start_gap hg hn hp hpm hst
        have hlen : l.length = k - p := by rw [← hl, linearSeg, List.length_map, List.length_range, k2]
        obtain ⟨n1, n2⟩ := k3 (p + t) (by omega) (by omega)
        have hmiss := (hg.missing_iff (p + t)).2 n1
        obtain ⟨x, hx⟩ := exists_lastBefore hg.gapped hmiss
        obtain ⟨y, hy⟩ := exists_firstAfter hg.gapped n2 hmiss
        have hline := c2 (p + t) n2 hmiss x y hx hy
        -- the neighbours of the gap
        have hp1 : 0 < p ∧ p - 1 ∈ P.indices := by
          rcases hst with h | h | h
          · exact absurd h hpm
          · omega
          · exact h
        have hx1 : x.1 = p - 1 := by
          obtain ⟨w, hw⟩ := mem_zip_of_mem hg.len hp1.2
          have h1 := hx.2.2 _ hw (by simp only; omega)
          simp only at h1
          have h2 := hx.2.1
          by_contra hc
          have hin := (List.of_mem_zip (b := x.2) hx.1).1
          exact (k3 x.1 (by omega) (by omega)).1 hin
        have hy1 : y.1 = k := by
          obtain ⟨w, hw⟩ := mem_zip_of_mem hg.len hk
          have h1 := hy.2.2 _ hw (by simp only; omega)
          simp only at h1
          have h2 := hy.2.1
          by_contra hc
          have hin := (List.of_mem_zip (b := y.2) hy.1).1
          exact (k3 y.1 (by omega) (by omega)).1 hin
        have hxp : LastBefore P.obs p x := ⟨hx.1, by omega, fun b hb hbp => hx.2.2 b hb (by omega)⟩
        have hyp : FirstAfter P.obs p y := ⟨hy.1, by omega, fun b hb hbp => by
          have hin := (List.of_mem_zip (b := b.2) hb).1
          by_contra hc
          exact (k3 b.1 (by omega) (by omega)).1 hin⟩
        have r1 := (rank_last hg hxp).2
        have r2 := rank_first hg hpm hyp
        rw [List.getD_eq_getElem?_getD, List.getD_eq_getElem?_getD, r1, r2, k2] at hl
        simp only [Option.getD_some] at hl
        rw [List.getElem?_map, hline]
        simp only [Option.map_some, Option.some.injEq, ← hl, linearSeg, List.getElem_map, List.getElem_range]
        rw [hx1, hy1]
        have q1 : ((p + t : Nat) : ℚ) - ((p - 1 : Nat) : ℚ) = ((t + 1 : Nat) : ℚ) := by
          rw [Nat.cast_sub hp1.1]; push_cast; ring
        have q2 : (k : ℚ) - ((p - 1 : Nat) : ℚ) = ((k - p + 1 : Nat) : ℚ) := by
          rw [Nat.cast_sub hp1.1, Nat.cast_add, Nat.cast_sub (le_of_lt k1)]; push_cast; ring
        rw [q1, q2])
      (by simp) (by simp)
    cases hr : fillLoop (stepMethod spline P a short period .linearSeg) .raise P.values P.allCount P.allCount 0 0 P.indices
        (valuesToFill P.allCount P.indices P.values) with
    | error s =>
      rcases fillLoop_error (fun _ => hg.last) hr with rfl | ⟨p, j, g, hf⟩
      · exact absurd hr key.1
      · simp [stepMethod] at hf
    | ok r =>
      obtain ⟨k1, k2, k3⟩ := key.2 r hr
      congr 1
      apply List.ext_getElem?
      intro p
      by_cases hp : p < P.allCount
      · by_cases hpm : p ∈ P.indices
        · obtain ⟨v, hv⟩ := mem_zip_of_mem hg.len hpm
          rw [k2 _ hv, List.getElem?_map, c1.keeps _ hv]
          rfl
        · obtain ⟨v, h1, h2⟩ := k3 p hp hpm
          rw [h1, h2]
      · rw [List.getElem?_eq_none (by omega), List.getElem?_eq_none (by rw [List.length_map, c1.len]; omega)]

/-! ### errors -/

theorem fillLoop_errNone {f : Nat → Nat → List (Option ℚ) → Except FillStop Fill} {onErr : OnError} (ho : onErr ≠ .raise) {values : List ℚ}
    {n : Nat} {fuel i j : Nat} {idx : List Nat} {full : List (Option ℚ)} (hlast : i < n → n - 1 ∈ idx) (hj : j + idx.length ≤ values.length)
    {s : FillStop} (h : fillLoop f onErr values n fuel i j idx full = .error s) : s = .hang ∨ s = .unmodelled := by
  induction fuel generalizing i j idx full with
  | zero =>
    unfold fillLoop at h
    split at h
    · cases h
    · cases h; exact .inl rfl
  | succ fuel ih =>
    unfold fillLoop at h
    split at h
    · cases h
    · rename_i hi
      have hl := hlast (by omega)
      cases idx with
      | nil => simp at hl
      | cons k t =>
        simp only [List.length_cons] at h hj
        split at h
        · rename_i hk
          subst hk
          refine ih ?_ (by omega) h
          intro hk
          rcases List.mem_cons.1 hl with e | e
          · omega
          · exact e
        · split at h
          · cases h; exact .inl rfl
          · split at h
            · exact ih (fun _ => hl) (by simpa using hj) h
            · split at h
              · cases h; exact .inl rfl
              · exact ih (fun _ => hl) (by simpa using hj) h
            · cases onErr with
              | raise => exact absurd rfl ho
              | none => exact ih (fun _ => hl) (by simpa using hj) h
              | last =>
                simp only at h
                split at h
                · exact ih (fun _ => hl) (by simpa using hj) h
                · rename_i hv
                  rw [List.getElem?_eq_none_iff] at hv
                  omega
            · rename_i hne hf
              cases h
              cases s with
              | err e => exact absurd rfl (hne e)
              | hang => exact .inl rfl
              | unmodelled => exact .inr rfl

/-- the step-by-step methods -/
def StepByStep (method : String) : Prop :=
  method = "min" ∨ method = "max" ∨ method = "median" ∨ method = "average" ∨ method = "weighted_avg" ∨ method = "constant" ∨ method = "last" ∨
    method = "linear_seg" ∨ method = "spline_seg"

/-- **C96** (errors are absorbed). With 'fill_with_none' or 'fill_with_last' a step-by-step method with valid options raises nothing: missing
arguments, weights of the wrong number and failed interpolations included. (`unmodelled`: NaN, only for no neighbours at all.) -/
theorem C96_absorbs {spline : SplineOracle} (hsp : SplineLaws spline) {idx : List Int} {vs : List ℚ} {P : FillProc} (hne : idx ≠ [])
    (hP : FillProc.init idx vs = .ok P) {method : String} {a : FillArgs} (hm : StepByStep method) (hsafe : SafeCall method a)
    (he : a.ifException = some "fill_with_none" ∨ a.ifException = some "fill_with_last") {short : OnShort} (hs : a.onShort = .ok short)
    {period : Nat} (hper : a.periodOf = .ok period) :
    (∃ r, P.fillUp spline method a = .ok r) ∨ P.fillUp spline method a = .error .unmodelled := by
  obtain ⟨hg, -, -⟩ := FillProc.init_good hne hP
  have hend := C90_ends hsp hne hP hsafe
  cases hr : P.fillUp spline method a with
  | ok r => exact .inl ⟨r, rfl⟩
  | error s =>
    right
    rw [hr] at hend
    suffices s = .hang ∨ s = .unmodelled by
      rcases this with rfl | rfl
      · exact absurd rfl hend
      · rfl
    obtain ⟨onErr, ho, hor⟩ : ∃ onErr, a.onError = .ok onErr ∧ onErr ≠ .raise := by
      unfold FillArgs.onError
      rcases he with he | he <;> rw [he]
      · exact ⟨.none, rfl, by simp⟩
      · exact ⟨.last, rfl, by simp⟩
    unfold FillProc.fillUp at hr
    rw [ho, hs, hper] at hr
    split at hr
    · cases hr
    · simp only at hr
      have fin : ∀ m, FillMethod.ofName method = some m → (∀ spline P onErr short period, fillWith spline P m a onErr short period =
          fillLoop (stepMethod spline P a short period m) onErr P.values P.allCount P.allCount 0 0 P.indices
            (valuesToFill P.allCount P.indices P.values)) → s = .hang ∨ s = .unmodelled := by
        intro m e1 e2
        rw [e1] at hr
        simp only at hr
        rw [e2, except_map_error] at hr
        exact fillLoop_errNone hor (fun _ => hg.last) (by rw [hg.len]; omega) hr
      rcases hm with rfl | rfl | rfl | rfl | rfl | rfl | rfl | rfl | rfl
      · exact fin .min rfl fun _ _ _ _ _ => rfl
      · exact fin .max rfl fun _ _ _ _ _ => rfl
      · exact fin .median rfl fun _ _ _ _ _ => rfl
      · exact fin .average rfl fun _ _ _ _ _ => rfl
      · exact fin .weightedAvg rfl fun _ _ _ _ _ => rfl
      · exact fin .constant rfl fun _ _ _ _ _ => rfl
      · exact fin .last rfl fun _ _ _ _ _ => rfl
      · exact fin .linearSeg rfl fun _ _ _ _ _ => rfl
      · exact fin .splineSeg rfl fun _ _ _ _ _ => rfl

/-- **C96** (the whole-series spline). It needs four observations. If there are fewer, 'fill_with_none' leaves the gaps empty, and
'fill_with_last', which should carry the last value, ends in a TypeError. -/
theorem C96_spline {spline : SplineOracle} {idx : List Int} {vs : List ℚ} {P : FillProc} (hne : idx ≠ [])
    (hP : FillProc.init idx vs = .ok P) (hneed : P.need = true) (h3 : (observations idx vs).length ≤ 3) {a : FillArgs} {short : OnShort}
    (hs : a.onShort = .ok short) {period : Nat} (hper : a.periodOf = .ok period) :
    (a.ifException = none ∨ a.ifException = some "raise" → P.fillUp spline "spline" a = .error (.err .exception)) ∧
    (a.ifException = some "fill_with_last" → P.fillUp spline "spline" a = .error (.err .typeError)) ∧
    (a.ifException = some "fill_with_none" → ∃ l tags, P.fillUp spline "spline" a = .ok (some (l, tags)) ∧
      ∀ p < l.length, Missing (observations idx vs) p → l[p]? = some none) := by
  obtain ⟨hg, -, -⟩ := FillProc.init_good hne hP
  rw [← obs_eq hne hP] at h3 ⊢
  have h3' : P.values.length ≤ 3 := by
    unfold FillProc.obs at h3
    rw [List.length_zip, hg.len, Nat.min_self] at h3
    exact h3
  have m1 : FillMethod.ofName "spline" = some .spline := rfl
  have hf : ∀ onErr, a.onError = .ok onErr → P.fillUp spline "spline" a =
      (entireFill P onErr (.error .exception)).map fun l => some (l, P.tags) := by
    intro onErr he
    unfold FillProc.fillUp
    rw [he, hs, hper, m1, if_neg (by simp [hneed])]
    simp only [fillWith, if_pos h3']
  refine ⟨fun he => ?_, fun he => ?_, fun he => ?_⟩
  · rw [hf .raise (by unfold FillArgs.onError; rcases he with he | he <;> rw [he] <;> rfl)]
    rfl
  · rw [hf .last (by unfold FillArgs.onError; rw [he]; rfl)]
    rfl
  · rw [hf .none (by unfold FillArgs.onError; rw [he]; rfl)]
    refine ⟨_, _, rfl, fun p hp hm => ?_⟩
    obtain ⟨t1, -, t3⟩ := hg.toFill
    exact t3 p (by omega) hm

theorem need_false {idx : List Int} {vs : List ℚ} {P : FillProc} (hne : idx ≠ [])
    (hP : FillProc.init idx vs = .ok P) {n : Nat} (hn : Gapped (observations idx vs) n)
    (h : (∀ p < n, ¬ Missing (observations idx vs) p) ∨ 17280 < n) : P.need = false := by
  obtain ⟨hg, -, -⟩ := FillProc.init_good hne hP
  rw [← obs_eq hne hP] at hn h
  have hcount : n = P.allCount := by
    obtain ⟨v, h1, h2⟩ := hn.last
    obtain ⟨w, h3, h4⟩ := hg.gapped.last
    have a1 := hn.inside _ h4
    have a2 := hg.gapped.inside _ h2
    simp only at a1 a2
    omega
  subst hcount
  by_contra hc
  have hc : P.need = true := by simpa using hc
  obtain ⟨c1, c2⟩ := hg.need.1 hc
  rcases h with h | h
  · have : ∀ p < P.allCount, p ∈ P.indices := by
      intro p hp
      by_contra hm
      exact h p hp ((hg.missing_iff p).2 hm)
    have hsub : List.range P.allCount ⊆ P.indices := fun p hp => this p (List.mem_range.1 hp)
    have := (List.nodup_range (n := P.allCount)).subperm hsub |>.length_le
    rw [List.length_range] at this
    omega
  · omega

/-- **C96** (no gaps). A series without gaps, or longer than 17280 positions, is answered before the options are looked at: the result is
`(None, None)` even for an unknown method. -/
theorem C96_no_gaps {spline : SplineOracle} {idx : List Int} {vs : List ℚ} {P : FillProc} (hne : idx ≠ [])
    (hP : FillProc.init idx vs = .ok P) {n : Nat} (hn : Gapped (observations idx vs) n)
    (h : (∀ p < n, ¬ Missing (observations idx vs) p) ∨ 17280 < n) (method : String) (a : FillArgs) : P.fillUp spline method a = .ok none := by
  unfold FillProc.fillUp
  rw [if_pos (need_false hne hP hn h)]

/-- **C96** (options). With gaps to fill, an unknown option is an Exception, a negative or non-integer period a ValueError, an unknown method a
NotImplementedError. -/
theorem C96_options {spline : SplineOracle} {P : FillProc} (hneed : P.need = true) {method : String} {a : FillArgs} :
    (∀ s, a.ifException = some s → s ∉ ["raise", "fill_with_none", "fill_with_last"] → P.fillUp spline method a = .error (.err .exception)) ∧
    (∀ s onErr, a.onError = .ok onErr → a.ifShort = some s → s ∉ ["raise", "fill_with_none", "try_best", "ignore"] →
      P.fillUp spline method a = .error (.err .exception)) ∧
    (∀ v onErr short, a.onError = .ok onErr → a.onShort = .ok short → a.period = some v → v ≠ .none →
      (v.asInt? = none ∨ ∃ i, v.asInt? = some i ∧ i < 0) → P.fillUp spline method a = .error (.err .valueError)) ∧
    (∀ onErr short period, a.onError = .ok onErr → a.onShort = .ok short → a.periodOf = .ok period →
      ¬ StepByStep method → method ≠ "auto" → method ≠ "linear" → method ≠ "spline" →
      P.fillUp spline method a = .error (.err .runtimeError)) := by
  unfold FillProc.fillUp
  rw [if_neg (by simp [hneed])]
  refine ⟨?_, ?_, ?_, ?_⟩
  · intro s hs hn
    have : a.onError = .error .exception := by
      unfold FillArgs.onError
      rw [hs]
      simp only [List.mem_cons, List.not_mem_nil, or_false, not_or] at hn
      simp only [if_neg hn.1, if_neg hn.2.1, if_neg hn.2.2]
    rw [this]
  · intro s onErr he hs hn
    have : a.onShort = .error .exception := by
      unfold FillArgs.onShort
      rw [hs]
      simp only [List.mem_cons, List.not_mem_nil, or_false, not_or] at hn
      simp only [if_neg hn.1, if_neg hn.2.1, if_neg hn.2.2.1, if_neg hn.2.2.2]
    rw [this, he]
  · intro v onErr short he hs hv hnn hbad
    have : a.periodOf = .error .valueError := by
      unfold FillArgs.periodOf
      rw [hv]
      cases v <;> simp only
      case none => exact absurd rfl hnn
      all_goals
        rcases hbad with hb | ⟨i, hb, hi⟩ <;> rw [hb]
        simp only [if_pos hi]
    rw [this, he, hs]
  · intro onErr short period he hs hper hst h1 h2 h3
    rw [he, hs, hper]
    simp only
    have : FillMethod.ofName method = none := by
      unfold StepByStep at hst
      push Not at hst
      obtain ⟨a1, a2, a3, a4, a5, a6, a7, a8, a9⟩ := hst
      unfold FillMethod.ofName
      simp only [h1, h2, h3, a1, a2, a3, a4, a5, a6, a7, a8, a9, if_false]
    rw [this]

/-! ### reports -/

/-- **C97** (missing positions). -/
theorem C97_indices {idx : List Int} {vs : List ℚ} {P : FillProc} (hne : idx ≠ []) (hP : FillProc.init idx vs = .ok P) {l : List Nat}
    (hr : P.missingIndices = .ok l) : ∃ n, Gapped (observations idx vs) n ∧ l.Pairwise (· < ·) ∧
      ∀ p, p ∈ l ↔ p < n ∧ Missing (observations idx vs) p := by
  obtain ⟨hg, -, -⟩ := FillProc.init_good hne hP
  rw [← obs_eq hne hP]
  unfold FillProc.missingIndices at hr
  rw [if_neg (by have := hg.pos; omega)] at hr
  split at hr
  · cases hr
  · rename_i hn
    have hn : P.need = true := by simpa using hn
    cases hr
    refine ⟨P.allCount, hg.gapped, List.Pairwise.filter _ List.pairwise_lt_range, fun p => ?_⟩
    rw [List.mem_filter, List.mem_range, hg.missing_iff]
    refine and_congr_right fun hp => ?_
    obtain ⟨g, e1, e2, e3⟩ := hg.info_get hn hp
    rw [List.getD_eq_getElem?_getD, e1, Option.getD_some, decide_eq_true_eq]
    constructor
    · intro h hm
      rw [e2 hm] at h
      simp at h
    · intro hm
      obtain ⟨m, k, -, -, -, a4, -, -, a7, -⟩ := e3 hm
      omega

theorem segmentLoop_spec {P : FillProc} (h : P.Good) (hn : P.need = true) {fuel i : Nat} (hf : P.allCount ≤ i + fuel)
    (hs : Start P i) :
    (∀ x ∈ segmentLoop P.info P.allCount fuel i, i ≤ x.1 ∧ 0 < x.2 ∧ x.1 - 1 ∈ P.indices ∧ 0 < x.1 ∧ x.1 + x.2 ∈ P.indices ∧
      ∀ p, x.1 ≤ p → p < x.1 + x.2 → p ∉ P.indices) ∧
    (∀ p, i ≤ p → p < P.allCount → p ∉ P.indices → ∃ x ∈ segmentLoop P.info P.allCount fuel i, x.1 ≤ p ∧ p < x.1 + x.2) ∧
    (segmentLoop P.info P.allCount fuel i).Pairwise fun x y => x.1 + x.2 < y.1 := by
  induction fuel generalizing i with
  | zero => simp [segmentLoop]; omega
  | succ fuel ih =>
    rw [segmentLoop]
    split
    · refine ⟨by simp, fun p a b => by omega, by simp⟩
    · rename_i hi
      have hi : i < P.allCount := by omega
      obtain ⟨g, e1, e2, e3⟩ := h.info_get hn hi
      simp only [List.getD_eq_getElem?_getD, e1, Option.getD_some]
      by_cases hm : i ∈ P.indices
      · rw [e2 hm, if_neg (by simp)]
        obtain ⟨i1, i2, i3⟩ := ih (i := i + 1) (by omega) (.inr (.inr ⟨by omega, by simpa using hm⟩))
        refine ⟨fun x hx => ?_, fun p a b c => ?_, i3⟩
        · obtain ⟨a1, a2⟩ := i1 x hx
          exact ⟨by omega, a2⟩
        · refine i2 p ?_ b c
          rcases Nat.lt_or_ge i p with h' | h'
          · omega
          · have : p = i := by omega
            subst this
            exact absurd hm c
      · obtain ⟨m, k, a1, a2, a3, a4, a5, -, a7, -⟩ := e3 hm
        have hpre : 0 < i ∧ i - 1 ∈ P.indices := by
          rcases hs with h' | h' | h'
          · exact absurd h' hm
          · omega
          · exact h'
        have hgap : ∀ p, i ≤ p → p < k → p ∉ P.indices := by
          intro p b1 b2 hp
          rcases a5 p hp with h' | h' <;> omega
        have hk : i + g.fwd = k := by omega
        rw [if_pos (by omega), hk]
        obtain ⟨i1, i2, i3⟩ := ih (i := k) (by omega) (.inl a2)
        refine ⟨fun x hx => ?_, fun p b1 b2 b3 => ?_, ?_⟩
        · rcases List.mem_cons.1 hx with rfl | hx
          · exact ⟨le_refl _, by omega, hpre.2, hpre.1, by simp only; rw [hk]; exact a2, fun p b1 b2 => hgap p b1 (by simp only at b2; omega)⟩
          · obtain ⟨c1, c2⟩ := i1 x hx
            exact ⟨by omega, c2⟩
        · rcases Nat.lt_or_ge p k with h' | h'
          · exact ⟨_, List.mem_cons_self .., b1, by simp only; omega⟩
          · obtain ⟨x, hx, c⟩ := i2 p h' b2 b3
            exact ⟨x, List.mem_cons_of_mem _ hx, c⟩
        · rw [List.pairwise_cons]
          refine ⟨fun y hy => ?_, i3⟩
          obtain ⟨c1, c2, -, c4, -, c6⟩ := i1 y hy
          simp only
          rcases Nat.lt_or_ge k y.1 with h' | h'
          · omega
          · have : y.1 = k := by omega
            exact absurd a2 (this ▸ c6 y.1 (le_refl _) (by omega))

/-- **C97** (gaps). The reported segments are the maximal runs of missing positions, in order. -/
theorem C97_segments {idx : List Int} {vs : List ℚ} {P : FillProc} (hne : idx ≠ []) (hP : FillProc.init idx vs = .ok P)
    {l : List (Nat × Nat)} (hr : P.missingSegments = .ok l) : ∃ n, Gapped (observations idx vs) n ∧
      l.Pairwise (fun x y => x.1 + x.2 < y.1) ∧
      (∀ x ∈ l, 0 < x.2 ∧ (∀ p, x.1 ≤ p → p < x.1 + x.2 → Missing (observations idx vs) p) ∧ 0 < x.1 ∧
        ¬ Missing (observations idx vs) (x.1 - 1) ∧ ¬ Missing (observations idx vs) (x.1 + x.2)) ∧
      ∀ p < n, Missing (observations idx vs) p → ∃ x ∈ l, x.1 ≤ p ∧ p < x.1 + x.2 := by
  obtain ⟨hg, -, -⟩ := FillProc.init_good hne hP
  rw [← obs_eq hne hP]
  unfold FillProc.missingSegments at hr
  rw [if_neg (by have := hg.pos; omega)] at hr
  split at hr
  · cases hr
  · rename_i hn
    have hn : P.need = true := by simpa using hn
    cases hr
    obtain ⟨h1, h2, h3⟩ := segmentLoop_spec hg hn (fuel := P.allCount) (i := 0) (by omega) (.inl hg.head)
    simp only [hg.missing_iff, not_not]
    exact ⟨P.allCount, hg.gapped, h3, fun x hx => ⟨(h1 x hx).2.1, (h1 x hx).2.2.2.2.2, (h1 x hx).2.2.2.1, (h1 x hx).2.2.1, (h1 x hx).2.2.2.2.1⟩,
      fun p hp hm => h2 p (by omega) hp hm⟩

/-- **C97** (no gaps). Both reports raise AttributeError for a series without gaps, instead of an empty report. -/
theorem C97_no_gaps {idx : List Int} {vs : List ℚ} {P : FillProc} (hne : idx ≠ [])
    (hP : FillProc.init idx vs = .ok P) {n : Nat} (hn : Gapped (observations idx vs) n)
    (h : (∀ p < n, ¬ Missing (observations idx vs) p) ∨ 17280 < n) :
    P.missingIndices = .error .attributeError ∧ P.missingSegments = .error .attributeError := by
  have hneed := need_false hne hP hn h
  obtain ⟨hg, -, -⟩ := FillProc.init_good hne hP
  have := hg.pos
  unfold FillProc.missingIndices FillProc.missingSegments
  rw [if_neg (by omega), if_pos hneed, if_neg (by omega), if_pos hneed]
  exact ⟨rfl, rfl⟩

/-! ### non-vacuity -/

example : demoCall "min" { backwardN := some 2, forwardN := some 0, ifShort := some "fill_with_none" } = some ([some 1, some 2, some 3, some 2, none, some 9, some 3, some 2, some 2, none, some 1, some 2]) := by decide +kernel
example : demoCall "min" { backwardN := some 1, forwardN := some 1, considerPeriod := true, period := some (.int 2), ifShort := some "raise" } = some ([some 1, some 2, some 3, some 2, some 3, some 9, some 3, some 2, some 1, some 2, some 1, some 2]) := by decide +kernel
example : demoProc.fillUp linearSpline "min" { backwardN := some 2, ifShort := some "raise" } = .error (.err .exception) := by
  decide +kernel
example : demoCall "linear_seg" {} = some ([some 1, some 2, some 3, some 5, some 7, some 9, some 3, some 2, some (5/3), some (4/3), some 1, some 2]) := by decide +kernel
example : demoCall "average" { ifException := some "fill_with_last" } = some ([some 1, some 2, some 3, some 3, some 3, some 9, some 3, some 2, some 2, some 2, some 1, some 2]) := by decide +kernel
example : demoCall "average" { ifException := some "fill_with_none" } = some ([some 1, some 2, some 3, none, none, some 9, some 3, some 2, none, none, some 1, some 2]) := by decide +kernel
example : demoProc.missingIndices = .ok [3, 4, 8, 9] ∧ demoProc.missingSegments = .ok [(3, 2), (8, 2)] := by decide +kernel
/-- three observations around a gap (C96, spline) and a series without gaps (C97) -/
example : ∃ P, FillProc.init [0, 1, 4] [1, 2, 8] = .ok P ∧ P.need = true := ⟨_, rfl, rfl⟩
example : ∃ P, FillProc.init [0, 1, 2] [1, 2, 8] = .ok P ∧ P.need = false := ⟨_, rfl, rfl⟩

end Verif
