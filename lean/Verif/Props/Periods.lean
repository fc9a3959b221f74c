import Verif.Props.Output

/-!
# Period detection (C22, C31, C41, C42)
-/

namespace Verif

open Spec

/-! ## argmax -/

theorem argmaxLoop_spec (pre : List ℚ) : ∀ (l : List ℚ) (i best : Nat) (v : ℚ), pre.length = i → best < i →
    pre.getD best 0 = v → (∀ x ∈ pre, x ≤ v) →
    argmaxLoop l i best v < i + l.length ∧ ∀ x ∈ pre ++ l, x ≤ (pre ++ l).getD (argmaxLoop l i best v) 0 := by
  intro l
  induction l generalizing pre with
  | nil =>
    intro i best v hi hb hv hm
    simp only [argmaxLoop, List.append_nil, List.length_nil]
    exact ⟨by omega, by rw [hv]; exact hm⟩
  | cons x t ih =>
    intro i best v hi hb hv hm
    have e : pre ++ x :: t = (pre ++ [x]) ++ t := by simp
    simp only [argmaxLoop, List.length_cons]
    split
    · rename_i hlt
      have := ih (pre ++ [x]) (i + 1) i x (by simp [hi]) (by omega)
        (by simp [List.getD_eq_getElem?_getD, ← hi])
        (by
          intro y hy
          rcases List.mem_append.1 hy with hy | hy
          · exact le_trans (hm y hy) (le_of_lt hlt)
          · simp at hy; rw [hy])
      rw [e]
      exact ⟨by omega, this.2⟩
    · rename_i hlt
      have := ih (pre ++ [x]) (i + 1) best v (by simp [hi]) (by omega)
        (by
          rw [← hv]
          simp only [List.getD_eq_getElem?_getD]
          rw [List.getElem?_append_left (by omega)])
        (by
          intro y hy
          rcases List.mem_append.1 hy with hy | hy
          · exact hm y hy
          · simp at hy; rw [hy]; exact not_lt.1 hlt)
      rw [e]
      exact ⟨by omega, this.2⟩

theorem argmax_spec {l : List ℚ} (hl : l ≠ []) : argmax l < l.length ∧ ∀ x ∈ l, x ≤ l.getD (argmax l) 0 := by
  cases l with
  | nil => exact absurd rfl hl
  | cons a t =>
    have := argmaxLoop_spec [a] t 1 0 a rfl (by omega) (by simp) (by simp)
    simp only [argmax, List.tail_cons, List.headD_cons, List.length_cons]
    simp only [List.cons_append, List.nil_append] at this
    exact ⟨by omega, this.2⟩

/-! ## The correlogram search -/

/-- number of entries that can still be picked -/
def pickable (l : List ℚ) : Nat := (l.filter fun x => decide (1 / 10 ≤ x)).length

theorem pickable_set {l : List ℚ} {i : Nat} (hi : i < l.length) (hx : 1 / 10 ≤ l.getD i 0) :
    pickable (l.set i 0) + 1 = pickable l := by
  induction l generalizing i with
  | nil => simp at hi
  | cons a t ih =>
    cases i with
    | zero =>
      simp only [List.getD_cons_zero] at hx
      have h0 : ¬ ((1 : ℚ) / 10 ≤ 0) := by norm_num
      simp only [pickable, List.set_cons_zero, List.filter_cons, decide_eq_true_eq, h0, hx, if_true, if_false,
        List.length_cons]
    | succ i =>
      simp only [List.getD_cons_succ] at hx
      have := ih (by simpa using hi) hx
      simp only [pickable, List.set_cons_succ, List.filter_cons] at this ⊢
      split
      · simp only [List.length_cons]; omega
      · omega

/-- With fuel above the number of pickable entries the search stops; it returns distinct lags inside the limits, each
with an autocorrelation of at least 0.1. -/
theorem correlogramLoop_spec (conf : List ℚ) (maxP : Nat) : ∀ (fuel : Nat) (acf : List ℚ), acf ≠ [] →
    pickable acf < fuel → ∃ ps, correlogramLoop conf maxP fuel acf = some ps ∧ ps.Nodup ∧
      ∀ p ∈ ps, 4 < p ∧ p < maxP ∧ p ≤ acf.length ∧ 1 / 10 ≤ acf.getD (p - 1) 0 := by
  intro fuel
  induction fuel with
  | zero => intro acf _ h; omega
  | succ fuel ih =>
    intro acf hne hf
    obtain ⟨hlt, hmax⟩ := argmax_spec hne
    simp only [correlogramLoop]
    split
    · exact ⟨[], rfl, List.nodup_nil, by simp⟩
    · rename_i hc
      push Not at hc
      have hp := pickable_set hlt hc.2
      obtain ⟨ps, h1, h2, h3⟩ := ih (acf.set (argmax acf) 0) (by simpa using hne) (by omega)
      have hold : ∀ p ∈ ps, p - 1 ≠ argmax acf ∧ 1 / 10 ≤ acf.getD (p - 1) 0 := by
        intro p hp
        obtain ⟨a, b, c, e⟩ := h3 p hp
        rw [List.length_set] at c
        by_cases hpa : p - 1 = argmax acf
        · exfalso
          rw [hpa, List.getD_eq_getElem?_getD, List.getElem?_set_self hlt] at e
          norm_num at e
        · refine ⟨hpa, ?_⟩
          rwa [List.getD_eq_getElem?_getD, List.getElem?_set_ne (by omega), ← List.getD_eq_getElem?_getD] at e
      rw [h1]
      simp only [Option.map_some]
      split
      · rename_i hin
        refine ⟨_, rfl, List.nodup_cons.2 ⟨?_, h2⟩, ?_⟩
        · intro hm
          exact (hold _ hm).1 (by omega)
        · intro p hp
          rcases List.mem_cons.1 hp with rfl | hp
          · exact ⟨hin.1, hin.2, by omega, by simpa using hc.2⟩
          · have := h3 p hp
            rw [List.length_set] at this
            exact ⟨this.1, this.2.1, this.2.2.1, (hold p hp).2⟩
      · refine ⟨_, rfl, h2, ?_⟩
        intro p hp
        have := h3 p hp
        rw [List.length_set] at this
        exact ⟨this.1, this.2.1, this.2.2.1, (hold p hp).2⟩

theorem pickable_le (l : List ℚ) : pickable l ≤ l.length := List.length_filter_le _ _

/-- **C41** (correlogram search terminates). The loop stops within the number of lags plus one rounds, and the
candidates are distinct and strictly between 4 and a third of the series length. -/
theorem C41_correlogram {E : Env} {data : List ℚ} {ps : List Nat}
    (h : correlogramDetector E data = .ok ps) :
    (∃ qs, correlogramLoop ((E.acf data (maxPeriodOf data.length)).map (·.2)) (maxPeriodOf data.length)
      ((E.acf data (maxPeriodOf data.length)).length + 1) ((E.acf data (maxPeriodOf data.length)).map (·.1)) = some qs ∧
      ps = qs) ∧
    ps.Nodup ∧ ∀ p ∈ ps, 4 < p ∧ 3 * p < data.length := by
  unfold correlogramDetector at h
  simp only at h
  split at h
  · cases h
  · rename_i h0
    have hb : ∀ l : List (ℚ × ℚ), pickable (l.map (·.1)) < l.length + 1 := by
      intro l
      have := pickable_le (l.map (·.1))
      rw [List.length_map] at this
      omega
    obtain ⟨qs, h1, h2, h3⟩ := correlogramLoop_spec ((E.acf data (maxPeriodOf data.length)).map (·.2))
      (maxPeriodOf data.length) ((E.acf data (maxPeriodOf data.length)).length + 1)
      ((E.acf data (maxPeriodOf data.length)).map (·.1))
      (by intro hc; rw [List.map_eq_nil_iff] at hc; rw [hc] at h0; exact h0 rfl) (hb _)
    rw [h1] at h
    simp only [Option.getD_some, Except.ok.injEq] at h
    subst h
    refine ⟨⟨_, h1, rfl⟩, h2, ?_⟩
    intro p hp
    obtain ⟨a, b, -, -⟩ := h3 p hp
    unfold maxPeriodOf at b
    refine ⟨a, ?_⟩
    have : p < data.length / 3 := lt_of_lt_of_le b (min_le_left _ _)
    omega

/-! ## Seasons -/

theorem length_gcvLoop (period : Nat) (l : List ℚ) (i idx : Nat) (bs : List Bucket) :
    (gcvLoop period l i idx bs).length = bs.length := by
  induction l generalizing i idx bs with
  | nil => rfl
  | cons v t ih => simp only [gcvLoop, ih, List.length_set]

theorem length_gcv (data : List ℚ) (p : Nat) : (gcv data p).2.length = p := by
  simp [gcv, length_gcvLoop]

theorem maxGcv_mem {data : List ℚ} {ps : List Nat} {r : ℚ × List ℚ} (h : maxGcv data ps = some r) :
    ∃ p ∈ ps, r = gcv data p := by
  unfold maxGcv at h
  have key : ∀ (l : List Nat) (b : Option (ℚ × List ℚ)), (∀ x, b = some x → ∃ p ∈ ps, x = gcv data p) →
      (∀ p ∈ l, p ∈ ps) → ∀ x, l.foldl (fun best p =>
        let r := gcv data p
        match best with
        | none => some r
        | some b => if r.1 < b.1 then some r else some b) b = some x → ∃ p ∈ ps, x = gcv data p := by
    intro l
    induction l with
    | nil => intro b hb _ x hx; exact hb x hx
    | cons q t ih =>
      intro b hb hl x hx
      refine ih _ ?_ (fun p hp => hl p (List.mem_cons_of_mem _ hp)) x hx
      intro y hy
      simp only at hy
      split at hy
      · simp only [Option.some.injEq] at hy
        exact ⟨q, hl q (by simp), hy.symm⟩
      · split at hy
        · simp only [Option.some.injEq] at hy
          exact ⟨q, hl q (by simp), hy.symm⟩
        · exact hb y hy
  exact key ps none (by simp) (fun p hp => hp) r h

theorem length_smoothSpikes (E : Env) (l : List ℚ) : (smoothSpikes E l).length = l.length := by
  simp [smoothSpikes]

/-- the seasons of `fit_seasons` have a candidate's length -/
theorem fitSeasons_length {E : Env} (hE : E.WF) {data seasons : List ℚ}
    (h : fitSeasons E data = .ok (some seasons)) : 4 < seasons.length ∧ 3 * seasons.length < data.length := by
  unfold fitSeasons at h
  obtain ⟨trend, ht, h⟩ := ebind_ok.1 h
  have hl := hE.trend_len _ _ _ ht
  rw [length_smoothSpikes] at hl
  dsimp only at h
  split at h
  · cases h
  · obtain ⟨ps, hps, h⟩ := ebind_ok.1 h
    split at h
    · cases h
    · split at h
      · cases h
      · rename_i mse s hm
        split at h
        · have e := epure_ok.1 h
          simp only [Option.some.injEq] at e
          subst e
          obtain ⟨p, hp, hr⟩ := maxGcv_mem hm
          have := (C41_correlogram hps).2.2 p hp
          have e2 : s = (gcv _ p).2 := congrArg Prod.snd hr
          rw [e2, length_gcv]
          refine ⟨this.1, ?_⟩
          have h3 := this.2
          rw [List.length_zipWith, length_smoothSpikes, hl, min_self] at h3
          exact h3
        · cases h

/-- `calculate_period` returns 0 or a period above 4 of which the series holds more than three -/
theorem calculatePeriod_spec {E : Env} (hE : E.WF) {series : List ℚ} {p : Nat}
    (h : calculatePeriod E series = .ok p) : p = 0 ∨ (4 < p ∧ 3 * p < series.length) := by
  unfold calculatePeriod at h
  split at h
  · cases h; exact .inl rfl
  · obtain ⟨s, hs, h⟩ := ebind_ok.1 h
    split at h
    · exact .inl (epure_ok.1 h).symm
    · rename_i seasons
      split at h
      · exact .inl (epure_ok.1 h).symm
      · split at h
        · exact .inl (epure_ok.1 h).symm
        · have e := epure_ok.1 h
          subst e
          exact .inr (fitSeasons_length hE hs)

/-! ## Refinement of the spectrum period -/

theorem everyNth_aux {step : Nat} (hs : 0 < step) (l : List ℚ) (k : Nat) :
    (k + step - 1) / step + ((l.zipIdx k).filter fun x => x.2 % step == 0).length = (k + l.length + step - 1) / step := by
  induction l generalizing k with
  | nil => simp
  | cons a t ih =>
    have h1 := ih (k + 1)
    have h2 : (k + 1 + step - 1) / step = (k + step - 1) / step + if k % step = 0 then 1 else 0 := by
      have e : k + 1 + step - 1 = (k + step - 1) + 1 := by omega
      rw [e, Nat.succ_div]
      congr 1
      have e2 : k + step - 1 + 1 = k + step := by omega
      simp only [e2, Nat.dvd_iff_mod_eq_zero, Nat.add_mod_right]
    have e3 : k + 1 + t.length + step - 1 = k + (a :: t).length + step - 1 := by
      simp only [List.length_cons]; omega
    rw [e3, h2] at h1
    rw [← h1, List.zipIdx_cons, List.filter_cons]
    simp only [beq_iff_eq]
    split
    · simp only [List.length_cons]; omega
    · omega

theorem length_everyNth {step : Nat} (hs : 0 < step) (l : List ℚ) :
    (everyNth step l).length = (l.length + step - 1) / step := by
  have := everyNth_aux hs l 0
  rw [Nat.zero_add, Nat.zero_add, Nat.div_eq_of_lt (by omega), Nat.zero_add] at this
  unfold everyNth
  rw [List.length_map, this]

/-- Invariant of the refinement loop: the current series holds every `per / vp`-th point of an original of length `N`. -/
theorem verifyLoop_spec {E : Env} (hE : E.WF) {N : Nat} : ∀ (fuel : Nat) (series : List ℚ) (base vp : Nat),
    0 < base → base * (series.length - 1) < N → (vp = 0 ∨ (4 < vp ∧ 3 * vp < series.length)) →
    series.length < fuel →
    ∀ r, verifyLoop E fuel series (if vp ≠ 0 then base * vp else base) vp = .ok r →
    ∃ q, r = some q ∧ (base * 2 < N → 2 * q < N) := by
  intro fuel
  induction fuel with
  | zero => intro series base vp _ _ _ h; omega
  | succ fuel ih =>
    intro series base vp hb hN hvp hf r h
    rw [verifyLoop] at h
    split at h
    · rename_i h0
      subst h0
      simp only [Except.ok.injEq] at h
      refine ⟨base, ?_, fun h => by omega⟩
      rw [← h]; simp
    · rename_i h0
      rcases hvp with hvp | ⟨h4, h3⟩
      · exact absurd hvp h0
      · dsimp only at h
        obtain ⟨vp', hc, h⟩ := ebind_ok.1 h
        have hl := length_everyNth (step := vp) (by omega) series
        have hle : (everyNth vp series).length - 1 ≤ (series.length - 1) / vp := by
          rw [hl]
          have e : series.length + vp - 1 = (series.length - 1) + vp := by omega
          rw [e, Nat.add_div_right _ (by omega)]
          simp
        have hmul : vp * ((everyNth vp series).length - 1) ≤ series.length - 1 :=
          le_trans (Nat.mul_le_mul_left _ hle) (Nat.mul_div_le _ _)
        have hlt : (everyNth vp series).length < series.length := by
          by_contra hcon
          have a1 : vp * (series.length - 1) ≤ vp * ((everyNth vp series).length - 1) :=
            Nat.mul_le_mul_left _ (by omega)
          have a2 : 5 * (series.length - 1) ≤ vp * (series.length - 1) := Nat.mul_le_mul_right _ (by omega)
          omega
        have hnew : base * vp * ((everyNth vp series).length - 1) < N := by
          rw [Nat.mul_assoc]
          exact lt_of_le_of_lt (Nat.mul_le_mul_left _ hmul) hN
        obtain ⟨q, hq, hq2⟩ := ih (everyNth vp series) (base * vp) vp' (by positivity) hnew
          (calculatePeriod_spec hE hc) (by omega) r h
        refine ⟨q, hq, fun _ => hq2 ?_⟩
        have : base * (2 * vp) ≤ base * (series.length - 1) := Nat.mul_le_mul_left _ (by omega)
        have e : base * vp * 2 = base * (2 * vp) := by ring
        omega

theorem length_normalize (l : List ℚ) : (normalize l).length = l.length := by
  unfold normalize
  simp only
  split <;> simp

/-- **C42** (spectrum period search terminates). The refinement never runs out of rounds, and more than two of the
periods found fit into the series. -/
theorem C42_spectrum_period {E : Env} (hE : E.WF) {series : List ℚ} {p : Nat}
    (h : spectrumDetect E series = .ok p) : 2 * p < series.length := by
  unfold spectrumDetect at h
  split at h
  · cases h
  · rename_i h12
    obtain ⟨p0, h0, h⟩ := ebind_ok.1 h
    have hc := calculatePeriod_spec hE h0
    rw [length_normalize] at hc
    split at h
    · have := epure_ok.1 h
      omega
    · rename_i hp0
      obtain ⟨r, hr, h⟩ := ebind_ok.1 h
      have := verifyLoop_spec hE (N := series.length) ((normalize series).length + 2) (normalize series) 1 p0
        (by omega) (by rw [length_normalize]; omega) (by rw [length_normalize]; exact hc) (by omega) r
        (by simpa [hp0] using hr)
      obtain ⟨q, rfl, hq⟩ := this
      have e := epure_ok.1 h
      subst e
      exact hq (by omega)

/-- The refinement loop of the spectrum search ends by itself: it never stops because the round limit of the model is
reached. -/
theorem C42_refinement_terminates {E : Env} (hE : E.WF) {series : List ℚ} {p : Nat} (hlen : 12 ≤ series.length)
    (h0 : calculatePeriod E (normalize series) = .ok p) (hp : p ≠ 0) :
    verifyLoop E ((normalize series).length + 2) (normalize series) p p ≠ .ok none := by
  intro h
  have hc := calculatePeriod_spec hE h0
  have := verifyLoop_spec hE (N := series.length) ((normalize series).length + 2) (normalize series) 1 p
    (by omega) (by rw [length_normalize]; omega) hc (by omega) none (by simpa [hp] using h)
  obtain ⟨q, hq, -⟩ := this
  cases hq

/-! ## The two-period check -/

theorem simpleDetect_spec {E : Env} {values : List ℚ} {g : Granularity} {i p : Nat}
    (h : simpleDetect E values g i = .ok (some p)) : 2 * p < values.length := by
  unfold simpleDetect at h
  split at h
  · cases h
  · rename_i v hv
    have := List.find?_some hv
    simp only [Bool.and_eq_true, Bool.not_eq_true', Bool.or_eq_false_iff, decide_eq_false_iff_not, not_le] at this
    obtain ⟨std, hs, h⟩ := ebind_ok.1 h
    split at h
    · have e := epure_ok.1 h
      simp only [Option.some.injEq] at e
      subst e
      omega
    · rename_i hc
      have e := epure_ok.1 h
      simp only [Option.some.injEq] at e
      subst e
      push Not at hc
      omega

/-- A detected period fits more than twice into the series it was detected on. -/
theorem periodDetection_spec {E : Env} (hE : E.WF) {series : List ℚ} {g : Granularity} {i : Nat} {skip : Bool}
    {p src : Nat} (h : periodDetection E series g i skip = .ok (p, src)) : 2 * p < series.length := by
  have spec : ∀ {q : Nat}, spectrumDetect E series = .ok q → 2 * q < series.length := fun hq =>
    C42_spectrum_period hE hq
  have key : ∀ s : Option Nat, (∀ q, s = some q → 2 * q < series.length) →
      (match s with
        | some p => if p ≠ 0 then pure (p, 0) else do
            let q ← spectrumDetect E series
            pure (q, 1)
        | none => do
            let q ← spectrumDetect E series
            pure (q, 1) : Except PyErr (Nat × Nat)) = .ok (p, src) → 2 * p < series.length := by
    intro s hs h
    have tail : (do
        let q ← spectrumDetect E series
        pure (q, 1) : Except PyErr (Nat × Nat)) = .ok (p, src) → 2 * p < series.length := by
      intro h
      obtain ⟨q, hq, h⟩ := ebind_ok.1 h
      have e := epure_ok.1 h
      simp only [Prod.mk.injEq] at e
      rw [← e.1]
      exact spec hq
    split at h
    · split at h
      · have e := epure_ok.1 h
        simp only [Prod.mk.injEq] at e
        rw [← e.1]
        exact hs _ rfl
      · exact tail h
    · exact tail h
  unfold periodDetection at h
  dsimp only at h
  split at h
  · obtain ⟨s, hs, h⟩ := ebind_ok.1 h
    have e := epure_ok.1 hs
    exact key s (by rw [← e]; simp) h
  · obtain ⟨s, hs, h⟩ := ebind_ok.1 h
    exact key s (fun q hq => simpleDetect_spec (by rw [hs, hq])) h

/-- the length of a series after filling -/
theorem filled_length {E : Env} (hE : E.WF) {M : Model} {idx : List Int} (hne : idx ≠ [])
    (hinit : FillProc.init idx M.values = .ok M.fill) {mode : FillUpMode} {p : Nat}
    {full : Option (List ℚ × List Bool)} (h : M.filled E mode p = .ok full) :
    ((full.map (·.1)).getD M.values).length =
      if M.fill.need = true ∧ mode ≠ .no ∧ mode ≠ .zero ∧ mode ≠ .notFill then M.fill.allCount else M.values.length := by
  have hgood := (FillProc.init_good hne hinit).1
  have h' := filled_ok h
  clear h
  rcases h' with ⟨rfl, h⟩ | ⟨l, tags, rfl, h⟩
  · rw [if_neg]
    · rfl
    · rintro ⟨hn, h1, h2, h3⟩
      have aux : ∀ x : Except PyErr (List (Option ℚ)),
          x.map (fun l => some (l, M.fill.tags)) ≠ .ok none := by
        intro x
        cases x <;> simp [Except.map]
      cases mode <;> simp only [fillUpOnDemand, hn, if_true] at h
      · exact aux _ h
      · exact h1 rfl
      · exact aux _ h
      · exact aux _ h
      · simp at h
      · exact h2 rfl
      · exact aux _ h
      · exact h3 rfl
  · obtain ⟨n, hg, hl, -⟩ := C25_imputation_keeps_observed (WF.splineLaws hE) hne hinit h
    rw [← obs_eq hne hinit] at hg
    have := Gapped.unique hg hgood.gapped
    have hc := fill_cases h
    rw [if_pos]
    · simpa [this] using hl
    · refine ⟨hc.1, ?_⟩
      rcases hc.2.2 with ⟨h | h, -⟩ | ⟨h, -⟩ | ⟨h, -⟩ | ⟨h, -⟩ <;> simp [h]

/-- A detected period fits more than twice into the grid, and into the series used for its detection. -/
theorem detectPeriod_spec {E : Env} (hE : E.WF) {M : Model} {idx : List Int} (hne : idx ≠ [])
    (hinit : FillProc.init idx M.values = .ok M.fill) {skip : Bool} {p src : Nat}
    (h : M.detectPeriod E skip = .ok (p, src)) :
    2 * p < if M.fill.need = true ∧ M.mode ≠ .no ∧ M.mode ≠ .zero ∧ M.mode ≠ .notFill then M.fill.allCount
      else M.values.length := by
  unfold Model.detectPeriod at h
  rw [if_neg fun hc => by rw [if_pos hc] at h; cases h] at h
  dsimp only at h
  by_cases hn : M.fill.need = true
  · rw [if_pos hn] at h
    obtain ⟨full, hf, h⟩ := ebind_ok.1 h
    have hp := periodDetection_spec hE (lift_ok.1 h)
    rw [filled_length hE hne hinit hf] at hp
    have e : (M.fill.need = true ∧ (if M.mode = .auto then FillUpMode.previous else M.mode) ≠ .no ∧
        (if M.mode = .auto then FillUpMode.previous else M.mode) ≠ .zero ∧
        (if M.mode = .auto then FillUpMode.previous else M.mode) ≠ .notFill) ↔
        (M.fill.need = true ∧ M.mode ≠ .no ∧ M.mode ≠ .zero ∧ M.mode ≠ .notFill) := by
      cases M.mode <;> simp
    simp only [e] at hp
    exact hp
  · rw [if_neg hn] at h
    obtain ⟨full, hf, h⟩ := ebind_ok.1 h
    have e := epure_ok.1 hf
    subst e
    have hp := periodDetection_spec hE (lift_ok.1 h)
    rw [if_neg (fun hc => hn hc.1)]
    simpa using hp

/-- **C31** (auto-detected periods never fail the two-period check). When no period is requested, the series handed to
the seasonal model is longer than two periods, so the check `len(series) < 2 * period + 1`
(`seasonal_series.py:39-40`) never fires. -/
theorem C31_two_periods {E : Env} (hE : E.WF) {M : Model} {idx : List Int} (hne : idx ≠ [])
    (hinit : FillProc.init idx M.values = .ok M.fill) {p : Nat} {src : Option Nat}
    {full : Option (List ℚ × List Bool)} (hp : M.usedPeriod E none = .ok (p, src))
    (hf : M.usedSeries E p = .ok full) (h1 : 1 < p) :
    ¬ ((full.map (·.1)).getD M.values).length < p * 2 + 1 := by
  unfold Model.usedPeriod at hp
  simp only at hp
  split at hp
  · cases hp; omega
  · obtain ⟨r, hr, e⟩ := emap_ok.1 hp
    simp only [Prod.mk.injEq] at e
    have hd := detectPeriod_spec hE hne hinit (p := r.1) (src := r.2) hr
    rw [e.1] at hd
    unfold Model.usedSeries at hf
    split at hf
    · cases hf
    · rw [if_pos (.inl h1)] at hf
      rw [filled_length hE hne hinit hf]
      omega

/-- **C22** (reported period), a period was requested. -/
theorem C22_requested_period {E : Env} (hE : E.WF) {W : Wild} {d : Detector} {data : DataArg} {params : Params}
    {items : List Item} (hno : params "indices" = none) (hf : FiniteFill E data params) {m : DetectType}
    (hm : InMode d params m) (h : (predict E W d data params).outcome = .ok items)
    {v : PyVal} {i : Int} (hv : params "period" = some v) (hi : IsInt v i) :
    0 ≤ i ∧ ∀ it ∈ items, (it.period : Int) = i := by
  obtain ⟨T, hT⟩ := item_period hE hno hf hm h
  have hpi : 0 ≤ i ∧ paramPeriod T.after = some i.toNat := by
    unfold paramPeriod
    rw [T.parsed.frame _ (by decide), hv]
    rcases T.parsed.period with h0 | ⟨w, j, h1, h2, h3⟩
    · rw [hv] at h0; cases h0
    · rw [hv] at h1
      cases h1
      have := isInt_unique hi (asInt_isInt h2)
      subst this
      simp [h2, h3]
  refine ⟨hpi.1, ?_⟩
  intro it hit
  rw [hT it hit]
  rcases T.selected.per with h1 | ⟨h1, -⟩
  · rw [hpi.2] at h1
    simp only [Option.some.injEq] at h1
    omega
  · rw [hpi.2] at h1; cases h1

/-- **C22**, no period was requested: the reported one is 0 or fits more than twice into the time grid. -/
theorem C22_detected_period {E : Env} (hE : E.WF) {W : Wild} {d : Detector} {hasTs hasValue : Bool}
    {rows : List (PyVal × PyVal)} {params : Params} {items : List Item} (hno : params "indices" = none)
    (hf : FiniteFill E (.frame hasTs hasValue rows) params) {m : DetectType} (hm : InMode d params m)
    (h : (predict E W d (.frame hasTs hasValue rows) params).outcome = .ok items) (hv : params "period" = none) :
    ∃ idx, Positions E params hasTs rows idx ∧
      ∀ it ∈ items, it.period = 0 ∨ 2 * (it.period : Int) < idx.getLastD 0 + 1 := by
  obtain ⟨T, hT⟩ := item_period hE hno hf hm h
  obtain ⟨eT, eV, eR⟩ : hasTs = T.hasTs ∧ hasValue = T.hasValue ∧ rows = T.rows := by
    simpa using T.isFrame
  have hpos := parsed_positions hE T.parsed T.validated
  rw [← eT, ← eR] at hpos
  refine ⟨T.idx, hpos, ?_⟩
  intro it hit
  rw [hT it hit]
  have hpi : paramPeriod T.after = none := by
    unfold paramPeriod
    rw [T.parsed.frame _ (by decide), hv]
    rfl
  obtain ⟨-, h2, h3, hne⟩ := T.len hE
  rcases T.selected.per with h1 | ⟨-, ⟨-, h1⟩ | ⟨-, src, h1⟩⟩
  · rw [hpi] at h1; cases h1
  · exact .inl h1
  · right
    have hd := detectPeriod_spec hE hne T.fillInit h1
    obtain ⟨hgood, hidx, hvals⟩ := FillProc.init_good hne T.fillInit
    have hall : T.M.values.length ≤ T.M.fill.allCount := by
      have := hgood.missing
      have := hgood.len
      rw [hvals] at this
      omega
    have hlast : (T.idx.getLastD 0) + 1 = (T.M.fill.allCount : Int) := by
      obtain ⟨k, hk, hkl⟩ := List.mem_iff_getElem.1 hgood.last
      have hpos := hgood.pos
      have hi := hgood.inside _ (List.getLast_mem (l := T.M.fill.indices)
        (by intro e; rw [e] at hk; simp at hk))
      have hle : T.M.fill.allCount - 1 ≤ T.M.fill.indices.getLast (by intro e; rw [e] at hk; simp at hk) := by
        rw [List.getLast_eq_getElem, ← hkl]
        by_cases hkk : k = T.M.fill.indices.length - 1
        · simp [hkk]
        · exact le_of_lt (List.pairwise_iff_getElem.1 hgood.sorted _ _ hk (by omega) (by omega))
      rw [hidx, List.getLastD_eq_getLast?, List.getLast?_map,
        List.getLast?_eq_getLast_of_ne_nil (by intro e; rw [e] at hk; simp at hk)]
      simp only [Option.map_some, Option.getD_some, Int.ofNat_eq_natCast]
      omega
    rw [hlast]
    split at hd <;> omega

/-! ### a concrete case -/

/-- `demoEnv` with an autocorrelation that peaks at the multiples of seven -/
def acfEnv : Env := { demoEnv with
  acf := fun _ n => (List.range n).map fun (i : Nat) =>
    (if (i + 1) % 7 = 0 then 9 / 10 - (i : ℚ) / 1000 else (0 : ℚ), 2 / 10) }

theorem acfEnv_WF : acfEnv.WF := { demoEnv_WF with acf_len := fun l n => by simp [acfEnv] }

/-- sixty values of period seven -/
def weekly : List ℚ := (List.range 60).map fun (i : Nat) => ((i % 7 * (i % 7) : Nat) : ℚ)

example : (match correlogramDetector acfEnv weekly, spectrumDetect acfEnv weekly with
    | .ok a, .ok b => some (a, b)
    | _, _ => none) = some ([7, 14], 7) := by decide +kernel

/-- forty days of them -/
def weekRows : List (PyVal × PyVal) :=
  (List.range 40).map fun (i : Nat) => (.int (i * 86400), .int ((i % 7 * (i % 7) : Nat)))

/-- a detected period, from the granularity and from the autocorrelation -/
example : (match (predict demoEnv demoWild latestDetector (.frame true true weekRows)
        (Params.ofList [("granularity", .str "daily")])).outcome,
      (predict acfEnv demoWild latestDetector (.frame true true weekRows) (Params.ofList [])).outcome with
    | .ok a, .ok b => some (a.map (·.period), b.map (·.period))
    | _, _ => none) = some ([7], [7]) := by decide +kernel

end Verif
