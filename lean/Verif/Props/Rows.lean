import Verif.Uni.Run

/-!
# Facts about the detection frame

Rows, flags and directions of the frame that the three detection models produce, before margins are applied.
-/

namespace Verif

/-- a point is flagged exactly when it is flagged positive or negative, never both -/
structure Row.Flags (r : Row) : Prop where
  anom : r.anom = (r.pos || r.neg)
  excl : ¬ (r.pos = true ∧ r.neg = true)

/-- the direction agrees with the position of the value relative to its expected value -/
structure Row.Dir (r : Row) : Prop where
  pos : r.pos = true → r.expected ≤ r.value
  neg : r.neg = true → r.value ≤ r.expected

/-- what remains of `Row.Dir` when the last expected value may be missing: such a row is flagged as positive -/
structure Row.Weak (r : Row) : Prop where
  pos : r.pos = true → r.expected ≤ r.value ∨ r.expected = 0
  neg : r.neg = true → r.value ≤ r.expected

theorem Row.Dir.weak {r : Row} (h : r.Dir) : r.Weak := ⟨fun x => .inl (h.pos x), h.neg⟩

theorem modifyStatus_flags (a : Bool) (e v : ℚ) :
    a = ((modifyStatus a e v).1 || (modifyStatus a e v).2) ∧
      ¬ ((modifyStatus a e v).1 = true ∧ (modifyStatus a e v).2 = true) ∧
      ((modifyStatus a e v).1 = true → e ≤ v) ∧ ((modifyStatus a e v).2 = true → v ≤ e) := by
  unfold modifyStatus
  cases a
  · simp
  · by_cases h : v < e
    · simp [h, h.le]
    · simp [h, not_lt.1 h]

theorem assemble_mem {values expected : List ℚ} {trend score : Option (List ℚ)} {an : List Nat} {r : Row}
    (h : r ∈ assemble values expected trend score an) :
    r.Flags ∧ r.Dir ∧ r.trend.isSome = trend.isSome ∧ r.score.isSome = score.isSome := by
  unfold assemble at h
  obtain ⟨i, -, rfl⟩ := List.mem_map.1 h
  obtain ⟨h1, h2, h3, h4⟩ := modifyStatus_flags (an.contains i) (expected.getD i 0) (values.getD i 0)
  exact ⟨⟨h1, h2⟩, ⟨h3, h4⟩, by simp, by simp⟩

theorem getD_map_range (values : List ℚ) : (List.range values.length).map (fun i => values.getD i 0) = values := by
  refine List.ext_getElem (by simp) ?_
  intro i h1 h2
  simp [List.getD_eq_getElem?_getD, h2]

theorem assemble_values (values expected : List ℚ) (trend score : Option (List ℚ)) (an : List Nat) :
    (assemble values expected trend score an).map (·.value) = values := by
  unfold assemble
  rw [List.map_map]
  exact getD_map_range values

/-- the facts every detection step establishes about its frame; `dir` says whether the directions are claimed -/
structure FrameOk (series : List ℚ) (trend dir : Prop) (rows : List Row) : Prop where
  values : rows.map (·.value) = series
  flags : ∀ r ∈ rows, r.Flags
  direction : dir → ∀ r ∈ rows, r.Dir
  weak : ∀ r ∈ rows, r.Weak
  trendy : ∀ r ∈ rows, (r.trend.isSome = true ↔ trend)

theorem frameOk_assemble {dir : Prop} (values expected : List ℚ) (trend score : Option (List ℚ)) (an : List Nat) :
    FrameOk values (trend.isSome = true) dir (assemble values expected trend score an) where
  values := assemble_values ..
  flags := fun _ hr => (assemble_mem hr).1
  direction := fun _ _ hr => (assemble_mem hr).2.1
  weak := fun _ hr => (assemble_mem hr).2.1.weak
  trendy := fun _ hr => by rw [(assemble_mem hr).2.2.1]

theorem FrameOk.len {series : List ℚ} {t d : Prop} {rows : List Row} (h : FrameOk series t d rows) :
    rows.length = series.length := by rw [← h.values, List.length_map]

theorem FrameOk.congr {series : List ℚ} {t t' d d' : Prop} {rows : List Row} (h : FrameOk series t d rows)
    (ht : t ↔ t') (hd : d' → d) : FrameOk series t' d' rows :=
  ⟨h.values, h.flags, fun x => h.direction (hd x), h.weak, fun r hr => (h.trendy r hr).trans ht⟩

theorem ite_some_isSome {α} (b : Bool) (a : α) : (if b = true then some a else none).isSome = true ↔ b = true := by
  cases b <;> simp

/-! ### dynamic threshold -/

theorem dtDetection_ok {E : Env} {series trend : List ℚ} {alpha : PyFloat} {ratio : ℚ} {needTrend last : Bool}
    {rows : List Row} {model : ModelType}
    (h : dtDetection E series trend alpha ratio needTrend last = .ok (rows, model)) :
    ∃ an t, dtAnomalies E (normalize series) alpha ratio last = .ok (an, model) ∧ t.length = series.length ∧
      rows = assemble series t (if needTrend then some t else none) none an := by
  unfold dtDetection at h
  obtain ⟨⟨an, md⟩, h1, h⟩ := ebind_ok.1 h
  obtain ⟨t, -, h⟩ := ebind_ok.1 h
  split at h
  · cases h
  · rename_i hl
    have := epure_ok.1 h
    simp only [Prod.mk.injEq] at this
    obtain ⟨rfl, rfl⟩ := this
    exact ⟨an, t, h1, not_not.1 hl, rfl⟩

theorem frameOk_dt {E : Env} {series trend : List ℚ} {alpha : PyFloat} {ratio : ℚ} {needTrend last : Bool}
    {rows : List Row} {model : ModelType} {dir : Prop}
    (h : dtDetection E series trend alpha ratio needTrend last = .ok (rows, model)) :
    FrameOk series (needTrend = true) dir rows := by
  obtain ⟨an, t, -, -, rfl⟩ := dtDetection_ok h
  exact (frameOk_assemble ..).congr (ite_some_isSome _ _) id

/-! ### seasonal series -/

theorem tsDetection_ok {E : Env} {series : List ℚ} {period : Nat} {ratio : ℚ} {alpha : PyFloat}
    {needTrend last : Bool} {rows : List Row} {model : ModelType}
    (h : tsDetection E series period ratio alpha needTrend last = .ok (rows, model)) :
    ∃ (an : List Nat) (d : Stl) (t : List ℚ), ratio ≤ 49 / 100 ∧ series.length ≠ 0 ∧ period * 2 + 1 ≤ series.length ∧
      tsAnomalies E (normalize (List.zipWith (· - ·) series d.seasonal))
        (normalize (List.zipWith (· - ·) (List.zipWith (· - ·) series d.seasonal) d.trend)) alpha
        (max ratio (ddiv 1 series.length)) last = .ok (an, model) ∧
      rows = assemble series (List.zipWith (· + ·) t d.seasonal) (if needTrend then some t else none) none an := by
  unfold tsDetection at h
  dsimp only at h
  split at h
  · cases h
  rename_i hr
  split at h
  · cases h
  rename_i hn
  split at h
  · cases h
  rename_i hp
  obtain ⟨d, -, h⟩ := ebind_ok.1 h
  obtain ⟨⟨an, md⟩, h1, h⟩ := ebind_ok.1 h
  obtain ⟨t, -, h⟩ := ebind_ok.1 h
  have := epure_ok.1 h
  simp only [Prod.mk.injEq] at this
  obtain ⟨rfl, rfl⟩ := this
  exact ⟨an, d, t, not_lt.1 hr, hn, not_lt.1 hp, h1, rfl⟩

theorem frameOk_ts {E : Env} {series : List ℚ} {period : Nat} {ratio : ℚ} {alpha : PyFloat}
    {needTrend last : Bool} {rows : List Row} {model : ModelType} {dir : Prop}
    (h : tsDetection E series period ratio alpha needTrend last = .ok (rows, model)) :
    FrameOk series (needTrend = true) dir rows := by
  obtain ⟨an, d, t, -, -, -, -, rfl⟩ := tsDetection_ok h
  exact (frameOk_assemble ..).congr (ite_some_isSome _ _) id

/-! ### spectral residual -/

theorem srTrend_ok {needTrend : Bool} {n : Nat} {t : Except PyErr (List ℚ)} {r : Option (List ℚ)}
    (h : srTrend needTrend n t = .ok r) : (r.isSome = true ↔ needTrend = true) ∧ ∀ x, r = some x → x.length = n := by
  unfold srTrend at h
  split at h
  · rename_i hn
    split at h
    · split at h
      · cases h
      · rename_i hl
        cases h
        simp [hn, not_not.1 hl]
    · cases h
  · rename_i hn
    cases h
    simp [hn]

/-- scores of `spectral_residual_detection`, the flagged points and the frame -/
theorem srDetection_ok {E : Env} {series : List ℚ} {threshold : PyFloat} {ratio : ℚ} {needTrend last : Bool}
    {rows : List Row} {model : ModelType}
    (h : srDetection E series threshold ratio needTrend last = .ok (rows, model)) :
    ∃ (sc : List ℚ) (trend : Option (List ℚ)) (score : List ℚ),
      srScores E series (max ((dmul series.length ratio).floor.toNat) 1) last = .ok (sc, model) ∧
      (trend.isSome = true ↔ needTrend = true) ∧
      score = sc.map (fun s => npClip (s - (35 / 10) / (15 - 35 / 10)) 0 1) ∧
      ((∃ expected, (if last then srExpectedLast series (sc.map fun s => decide (s ≤ 1))
            else some (srExpectedEntire series (sc.map fun s => decide (s ≤ 1)))) = some expected ∧
          rows = assemble series expected trend (some score)
            (srFlagged E threshold series.length sc (max ((dmul series.length ratio).floor.toNat) 1))) ∨
       (last = true ∧ srExpectedLast series (sc.map fun s => decide (s ≤ 1)) = none ∧
          rows = (assemble series (series.set (series.length - 1) 0) trend (some score)
            (srFlagged E threshold series.length sc
              (max ((dmul series.length ratio).floor.toNat) 1))).modify (series.length - 1) nanLastRow)) := by
  unfold srDetection at h
  obtain ⟨⟨sc, md⟩, h1, h⟩ := ebind_ok.1 h
  dsimp only at h
  split at h
  · rename_i expected he
    obtain ⟨trend, ht, h⟩ := ebind_ok.1 h
    have := epure_ok.1 h
    simp only [Prod.mk.injEq] at this
    obtain ⟨rfl, rfl⟩ := this
    exact ⟨sc, trend, _, h1, (srTrend_ok ht).1, rfl, .inl ⟨expected, he, rfl⟩⟩
  · rename_i he
    obtain ⟨trend, ht, h⟩ := ebind_ok.1 h
    have := epure_ok.1 h
    simp only [Prod.mk.injEq] at this
    obtain ⟨rfl, rfl⟩ := this
    refine ⟨sc, trend, _, h1, (srTrend_ok ht).1, rfl, .inr ?_⟩
    cases last
    · simp at he
    · exact ⟨rfl, by simpa using he, rfl⟩

theorem mem_modify {α} {l : List α} {i : Nat} {f : α → α} {r : α} (h : r ∈ l.modify i f) :
    r ∈ l ∨ ∃ s ∈ l, r = f s := by
  rw [List.mem_iff_getElem] at h
  obtain ⟨k, hk, rfl⟩ := h
  rw [List.getElem_modify]
  rw [List.length_modify] at hk
  split
  · exact .inr ⟨_, List.getElem_mem hk, rfl⟩
  · exact .inl (List.getElem_mem hk)

theorem modify_map {α β} (l : List α) (i : Nat) (f : α → α) (g : α → β) (h : ∀ a, g (f a) = g a) :
    (l.modify i f).map g = l.map g := by
  refine List.ext_getElem (by simp) ?_
  intro k h1 h2
  simp only [List.getElem_map, List.getElem_modify]
  split
  · rw [h]
  · rfl

theorem nanLastRow_flags (r : Row) : (nanLastRow r).Flags := ⟨by simp [nanLastRow], by simp [nanLastRow]⟩

/-- The first magnitude of the spectral residual transform does not fall into the interval of width 1e-13 above
2e-8 in which `isclose` replaces the average by EPS although the magnitude exceeds 2 EPS. -/
def SrRegular (E : Env) : Prop :=
  ∀ l m, (E.srTransform l).head? = some m → m ≤ 2 * EPS ∨ 2 * EPS + 1 / 10000000000000 < m

theorem extendSeries_ok {E : Env} {values ext : List ℚ} {b : Bool} (h : extendSeries E values b = .ok ext) :
    ∃ p, ext = values ++ List.replicate 5 p := by
  unfold extendSeries at h
  obtain ⟨p, -, h⟩ := ebind_ok.1 h
  exact ⟨p, (epure_ok.1 h).symm⟩

theorem length_cumsumFrom (s : ℚ) (l : List ℚ) : (cumsumFrom s l).length = l.length := by
  induction l generalizing s with
  | nil => rfl
  | cons a t ih => simp [cumsumFrom, ih]

theorem length_averageFilter (l : List ℚ) (n : Nat) (b : Bool) : (averageFilter l n b).length = l.length := by
  simp [averageFilter]

theorem spectralScore_ok {E : Env} (hE : E.WF) {series sc : List ℚ} {b : Bool}
    (h : spectralScore E series b = .ok sc) : sc.length = series.length := by
  unfold spectralScore at h
  obtain ⟨ext, he, h⟩ := ebind_ok.1 h
  obtain ⟨p, rfl⟩ := extendSeries_ok he
  rw [← epure_ok.1 h]
  simp [length_averageFilter, hE.sr_len]

/-- the first score is at most 1 -/
theorem spectralScore_head {E : Env} (hE : E.WF) (hs : SrRegular E) {series sc : List ℚ} {b : Bool}
    (h : spectralScore E series b = .ok sc) (hne : series ≠ []) : ∃ x, sc.head? = some x ∧ x ≤ 1 := by
  unfold spectralScore at h
  obtain ⟨ext, he, h⟩ := ebind_ok.1 h
  obtain ⟨p, rfl⟩ := extendSeries_ok he
  rw [← epure_ok.1 h]
  set T := E.srTransform (series ++ List.replicate 5 p) with hT
  have hlen : T.length = series.length + 5 := by rw [hT, hE.sr_len]; simp
  obtain ⟨m, T', hTm⟩ : ∃ m T', T = m :: T' := by
    cases hT' : T with
    | nil => rw [hT'] at hlen; simp at hlen
    | cons m T' => exact ⟨m, T', rfl⟩
  have hm0 : 0 ≤ m := hE.sr_nonneg _ m (by rw [← hT, hTm]; simp)
  have hreg := hs (series ++ List.replicate 5 p) m (by rw [← hT, hTm]; rfl)
  obtain ⟨a, s', rfl⟩ : ∃ a s', series = a :: s' := by
    cases series with
    | nil => exact absurd rfl hne
    | cons a s' => exact ⟨a, s', rfl⟩
  rw [hTm]
  have hav : (averageFilter ((m :: T').take (a :: s').length) 100 true) =
      m :: (averageFilter ((m :: T').take (a :: s').length) 100 true).tail := by
    have : ((m :: T').take (a :: s').length) = m :: T'.take s'.length := by simp
    rw [this]
    unfold averageFilter
    simp only [List.length_cons, List.range_succ_eq_map, List.map_cons, List.tail_cons]
    congr 1
    rw [if_neg (by split <;> simp)]
    simp [cumsum, cumsumFrom]
  rw [hav]
  have ht : ((m :: T').take (a :: s').length) = m :: T'.take s'.length := by simp
  rw [ht]
  simp only [List.map_cons, List.zipWith_cons_cons, List.head?_cons, Option.some.injEq, exists_eq_left']
  have hE' : (0 : ℚ) < EPS := by norm_num [EPS]
  have eE : EPS = 1 / 100000000 := rfl
  by_cases hc : isClose m EPS = true
  · rw [if_pos hc, div_le_one hE', abs_le]
    unfold isClose at hc
    rw [decide_eq_true_eq, abs_le, abs_of_pos hE'] at hc
    constructor
    · linarith
    · rcases hreg with h | h
      · linarith
      · exfalso; rw [eE] at h hc; linarith [hc.2]
  · rw [if_neg hc, sub_self, abs_zero, zero_div]
    norm_num

theorem srScores_len {E : Env} (hE : E.WF) {series sc : List ℚ} {maxO : Nat} {last : Bool} {model : ModelType}
    (h : srScores E series maxO last = .ok (sc, model)) : sc.length = series.length := by
  unfold srScores at h
  split at h
  · dsimp only at h
    obtain ⟨s0, h0, h⟩ := ebind_ok.1 h
    obtain ⟨f0, -, h⟩ := ebind_ok.1 h
    have := epure_ok.1 h
    simp only [Prod.mk.injEq] at this
    rw [← this.1]
    simp [spectralScore_ok hE h0]
  · obtain ⟨s0, h0, h⟩ := ebind_ok.1 h
    have := epure_ok.1 h
    simp only [Prod.mk.injEq] at this
    rw [← this.1]
    exact spectralScore_ok hE h0

theorem srScores_head {E : Env} (hE : E.WF) (hs : SrRegular E) {series sc : List ℚ} {maxO : Nat}
    {model : ModelType} (h : srScores E series maxO true = .ok (sc, model)) (hn : 2 ≤ series.length) :
    ∃ x, sc.head? = some x ∧ x ≤ 1 := by
  unfold srScores at h
  rw [if_pos rfl] at h
  dsimp only at h
  obtain ⟨s0, h0, h⟩ := ebind_ok.1 h
  obtain ⟨f0, -, h⟩ := ebind_ok.1 h
  have := epure_ok.1 h
  simp only [Prod.mk.injEq] at this
  rw [← this.1]
  have hne : series ≠ [] := by rintro rfl; simp at hn
  obtain ⟨x, hx, hx1⟩ := spectralScore_head hE hs h0 hne
  refine ⟨x, ?_, hx1⟩
  rw [List.head?_eq_getElem?, List.getElem?_set_ne (by omega), List.getElem?_map]
  obtain ⟨s', rfl⟩ : ∃ s', s0 = x :: s' := by
    cases s0 with
    | nil => simp at hx
    | cons y t => simp at hx; exact ⟨t, by rw [hx]⟩
  simp only [List.zipIdx_cons, List.getElem?_cons_zero, Option.map_some]
  rw [if_neg]
  intro hcut
  have hcut := hcut.1
  rw [List.length_append, List.length_take] at hcut
  simp only [List.length_singleton, Nat.add_sub_cancel, Nat.le_zero] at hcut
  have hdrop : min (max maxO (((series.length : ℚ) / 10).floor.toNat))
      (((series.length : ℚ) * (45 / 100)).floor.toNat) < series.length := by
    refine lt_of_le_of_lt (min_le_right _ _) ?_
    have h1 : (series.length : ℚ) * (45 / 100) < series.length := by
      have : (0 : ℚ) < series.length := by exact_mod_cast (by omega : 0 < series.length)
      linarith
    have h2 : (((series.length : ℚ) * (45 / 100)).floor : ℚ) ≤ (series.length : ℚ) * (45 / 100) := Int.floor_le _
    have : ((series.length : ℚ) * (45 / 100)).floor < series.length := by
      have : (((series.length : ℚ) * (45 / 100)).floor : ℚ) < ((series.length : Int) : ℚ) := by push_cast; linarith
      exact_mod_cast this
    omega
  rcases hf : (List.range series.length).find? (fun i =>
      decide (series.length - min (max maxO (((series.length : ℚ) / 10).floor.toNat))
        (((series.length : ℚ) * (45 / 100)).floor.toNat) ≤ i) && decide (3 / 2 ≤ (x :: s').getD i 0)) with _ | i
  · rw [hf] at hcut
    simp at hcut
    omega
  · rw [hf] at hcut
    have h1 := List.find?_some hf
    have h2 := List.mem_range.1 (List.mem_of_find?_eq_some hf)
    simp only [Bool.and_eq_true, decide_eq_true_eq] at h1
    simp only [Option.getD_some] at hcut
    omega

theorem srExpectedLast_some {series sc : List ℚ} (hlen : sc.length = series.length) {x : ℚ}
    (hx : sc.head? = some x) (h1 : x ≤ 1) : srExpectedLast series (sc.map fun s => decide (s ≤ 1)) ≠ none := by
  cases sc with
  | nil => simp at hx
  | cons y t =>
    simp only [List.head?_cons, Option.some.injEq] at hx
    subst hx
    cases series with
    | nil => simp at hlen
    | cons a s =>
      unfold srExpectedLast
      simp only [List.map_cons, List.zip_cons_cons, h1, decide_true, List.filter_cons_of_pos, List.map_cons]
      rw [if_neg]
      · simp
      · rw [List.length_drop]
        simp
        omega

theorem frameOk_sr {E : Env} (hE : E.WF) {series : List ℚ} {threshold : PyFloat} {ratio : ℚ}
    {needTrend last : Bool} {rows : List Row} {model : ModelType} (hn : 2 ≤ series.length)
    (h : srDetection E series threshold ratio needTrend last = .ok (rows, model)) :
    FrameOk series (needTrend = true) (last = false ∨ SrRegular E) rows := by
  obtain ⟨sc, trend, score, h1, h2, -, ⟨expected, -, rfl⟩ | ⟨hl, he, rfl⟩⟩ := srDetection_ok h
  · exact (frameOk_assemble ..).congr h2 id
  · have base := frameOk_assemble (dir := True) series (series.set (series.length - 1) 0) trend (some score)
      (srFlagged E threshold series.length sc (max ((dmul series.length ratio).floor.toNat) 1))
    refine ⟨?_, ?_, ?_, ?_, ?_⟩
    · rw [modify_map _ _ nanLastRow (·.value) (fun _ => rfl)]
      exact base.values
    · intro r hr
      rcases mem_modify hr with hr | ⟨s, hs, rfl⟩
      · exact base.flags r hr
      · exact nanLastRow_flags s
    · rintro (hd | hd)
      · rw [hl] at hd; cases hd
      · subst hl
        obtain ⟨x, hx, hx1⟩ := srScores_head hE hd h1 hn
        exact absurd he (srExpectedLast_some (srScores_len hE h1) hx hx1)
    · intro r hr
      obtain ⟨i, hi, rfl⟩ := List.mem_iff_getElem.1 hr
      rw [List.getElem_modify]
      split
      · rename_i hi'
        subst hi'
        refine ⟨fun _ => .inr ?_, by simp [nanLastRow]⟩
        have hlen := base.len
        simp [nanLastRow, assemble, List.getD_eq_getElem?_getD, List.getElem?_set_self (show series.length - 1 < series.length by omega)]
      · exact base.weak _ (List.getElem_mem _)
    · intro r hr
      rcases mem_modify hr with hr | ⟨s, hs, rfl⟩
      · exact (base.trendy r hr).trans h2
      · exact (base.trendy s hs).trans h2

/-! ### second pass on differences -/

theorem length_diffs (l : List ℚ) : (diffs l).length = l.length - 1 := by
  fun_induction diffs l <;> simp_all

theorem length_getDelta {delta : Nat} {l r : List ℚ} (h : getDelta delta l = .ok r) : r.length = l.length := by
  unfold getDelta at h
  dsimp only at h
  split at h
  · cases h
  · rename_i x hx
    have := (List.getElem?_eq_some_iff.1 hx).1
    rw [length_diffs] at this
    cases h
    simp [length_diffs]
    omega

theorem deltaLoop_len {E : Env} {rem delta k : Nat} {l r : List ℚ} (h : deltaLoop E rem delta l = .ok (some (k, r))) :
    r.length = l.length ∧ delta ≤ k ∧ k < delta + rem := by
  induction rem generalizing delta l with
  | zero => simp [deltaLoop] at h
  | succ m ih =>
    rw [deltaLoop] at h
    split at h
    · simp only [Except.ok.injEq, Option.some.injEq, Prod.mk.injEq] at h
      obtain ⟨rfl, rfl⟩ := h
      exact ⟨rfl, le_rfl, by omega⟩
    · obtain ⟨v, hv, h⟩ := ebind_ok.1 h
      obtain ⟨a, b, c⟩ := ih h
      exact ⟨a.trans (length_getDelta hv), by omega, by omega⟩

theorem mergeWithDelta_ok {E : Env} {rows out : List Row} {series : List ℚ} {ratio : ℚ}
    {run : List ℚ → ℚ → Except PyErr (List Row × ModelType)} (h : mergeWithDelta E rows series ratio run = .ok out) :
    out = rows ∨ ∃ (delta : Nat) (ds : List ℚ) (drows : List Row) (md : ModelType) (newE newT : List ℚ),
      shouldIncludeDelta E series = .ok (some (delta, ds)) ∧ delta ≠ 0 ∧ ds.length = series.length ∧
      (rows.filter (·.anom)).length < max ((dmul ds.length ratio).floor.toNat) 1 ∧
      run ds (ddiv ((max ((dmul ds.length ratio).floor.toNat) 1 - (rows.filter (·.anom)).length : Nat) : ℚ)
        ds.length) = .ok (drows, md) ∧ out = mergeRows rows drows newE newT := by
  unfold mergeWithDelta at h
  obtain ⟨o, ho, h⟩ := ebind_ok.1 h
  split at h
  · exact .inl (epure_ok.1 h).symm
  · exact .inl (epure_ok.1 h).symm
  · rename_i delta ds hd
    dsimp only at h
    split at h
    · rename_i hlt
      obtain ⟨⟨drows, md⟩, h1, h⟩ := ebind_ok.1 h
      obtain ⟨newE, -, h⟩ := ebind_ok.1 h
      obtain ⟨newT, -, h⟩ := ebind_ok.1 h
      exact .inr ⟨delta, ds, drows, md, newE, newT, ho, hd, (deltaLoop_len ho).1, hlt, h1,
        (epure_ok.1 h).symm⟩
    · exact .inl (epure_ok.1 h).symm

theorem mergedRow_facts (r d : Row) (e : ℚ) (t : Option ℚ) :
    (mergedRow r d e t).Flags ∧ (mergedRow r d e t).Dir := by
  unfold mergedRow
  refine ⟨⟨?_, ?_⟩, ⟨?_, ?_⟩⟩
  · by_cases h : e < r.value
    · simp [h]
    · simp [h, not_lt.1 h]
  · simp only [decide_eq_true_eq, not_and, not_le]
    exact id
  · simp only [decide_eq_true_eq]
    exact le_of_lt
  · simp only [decide_eq_true_eq]
    exact id

theorem length_mergeRows {rows drows : List Row} {newE newT : List ℚ} (h : drows.length = rows.length) :
    (mergeRows rows drows newE newT).length = rows.length := by
  simp [mergeRows, h]

/-- a row of the merged frame: unchanged, or taken over from the second pass -/
theorem getElem_mergeRows {rows drows : List Row} {newE newT : List ℚ} (h : drows.length = rows.length) {i : Nat}
    (hi : i < rows.length) :
    (mergeRows rows drows newE newT)[i]'(by rw [length_mergeRows h]; exact hi) =
      if !rows[i].anom && (drows[i]'(by omega)).anom then
        mergedRow rows[i] (drows[i]'(by omega)) (correctedAt (rows.map (·.expected)) newE i)
          (if rows[i].trend.isSome then some (correctedAt (rows.map fun r => r.trend.getD 0) newT i) else none)
      else rows[i] := by
  simp [mergeRows]

theorem frameOk_merge {E : Env} {rows out : List Row} {series : List ℚ} {ratio : ℚ}
    {run : List ℚ → ℚ → Except PyErr (List Row × ModelType)} {trend dir : Prop} (hr : FrameOk series trend dir rows)
    (hrun : ∀ ds q drows md, ds.length = series.length → run ds q = .ok (drows, md) → drows.length = ds.length)
    (h : mergeWithDelta E rows series ratio run = .ok out) : FrameOk series trend dir out := by
  rcases mergeWithDelta_ok h with rfl | ⟨delta, ds, drows, md, newE, newT, -, -, hl, -, h1, rfl⟩
  · exact hr
  · have hlen : drows.length = rows.length := by rw [hrun _ _ _ _ hl h1, hl, hr.len]
    have hmem : ∀ r ∈ mergeRows rows drows newE newT, r ∈ rows ∨
        ∃ s ∈ rows, ∃ d e t, r = mergedRow s d e t ∧ (t.isSome = true ↔ s.trend.isSome = true) := by
      intro r hr
      obtain ⟨i, hi, rfl⟩ := List.mem_iff_getElem.1 hr
      rw [length_mergeRows hlen] at hi
      rw [getElem_mergeRows hlen hi]
      split
      · exact .inr ⟨_, List.getElem_mem _, _, _, _, rfl, by split <;> simp_all⟩
      · exact .inl (List.getElem_mem _)
    refine ⟨?_, ?_, ?_, ?_, ?_⟩
    · rw [← hr.values]
      refine List.ext_getElem (by simp [length_mergeRows hlen]) ?_
      intro i h1 h2
      simp only [List.length_map] at h2
      rw [List.getElem_map, List.getElem_map, getElem_mergeRows hlen h2]
      split <;> rfl
    · intro r hm
      rcases hmem r hm with hm | ⟨s, -, d, e, t, rfl, -⟩
      · exact hr.flags r hm
      · exact (mergedRow_facts ..).1
    · intro hd r hm
      rcases hmem r hm with hm | ⟨s, -, d, e, t, rfl, -⟩
      · exact hr.direction hd r hm
      · exact (mergedRow_facts ..).2
    · intro r hm
      rcases hmem r hm with hm | ⟨s, -, d, e, t, rfl, -⟩
      · exact hr.weak r hm
      · exact (mergedRow_facts ..).2.weak
    · intro r hm
      rcases hmem r hm with hm | ⟨s, hs, d, e, t, rfl, ht⟩
      · exact hr.trendy r hm
      · exact ht.trans (hr.trendy s hs)

/-! ### one run -/

/-- the three ways a detection step runs -/
theorem run_ok {E : Env} {M : Model} {series : List ℚ} {ratio : ℚ} {p : Nat} {last : Bool} {rows : List Row}
    {model : ModelType} (h : M.run E series ratio p last = .ok (rows, model)) :
    (1 < p ∧ tsDetection E series p ratio M.alpha M.needTrend last = .ok (rows, model)) ∨
    (p ≤ 1 ∧ ∃ rows0, srDetection E series M.threshold ratio M.needTrend last = .ok (rows0, model) ∧
      mergeWithDelta E rows0 series ratio (fun s r => srDetection E s M.threshold r M.needTrend last) = .ok rows) ∨
    (p ≤ 1 ∧ ∃ rows0 trend, dtDetection E series trend M.alpha ratio M.needTrend last = .ok (rows0, model) ∧
      mergeWithDelta E rows0 series ratio (fun s r => dtDetection E s trend M.alpha r M.needTrend last) =
        .ok rows) := by
  unfold Model.run at h
  split at h
  · rename_i hp
    exact .inl ⟨hp, h⟩
  · rename_i hp
    split at h
    · obtain ⟨⟨rows0, md⟩, h1, h⟩ := ebind_ok.1 h
      obtain ⟨rows1, h2, h⟩ := ebind_ok.1 h
      have := epure_ok.1 h
      simp only [Prod.mk.injEq] at this
      obtain ⟨rfl, rfl⟩ := this
      exact .inr (.inl ⟨not_lt.1 hp, rows0, h1, h2⟩)
    · obtain ⟨trend, -, h⟩ := ebind_ok.1 h
      obtain ⟨⟨rows0, md⟩, h1, h⟩ := ebind_ok.1 h
      obtain ⟨rows1, h2, h⟩ := ebind_ok.1 h
      have := epure_ok.1 h
      simp only [Prod.mk.injEq] at this
      obtain ⟨rfl, rfl⟩ := this
      exact .inr (.inr ⟨not_lt.1 hp, rows0, trend, h1, h2⟩)

theorem frameOk_run {E : Env} (hE : E.WF) {M : Model} {series : List ℚ} {ratio : ℚ} {p : Nat} {last : Bool}
    {rows : List Row} {model : ModelType} (hn : 2 ≤ series.length)
    (h : M.run E series ratio p last = .ok (rows, model)) :
    FrameOk series (M.needTrend = true) (last = false ∨ SrRegular E) rows := by
  rcases run_ok h with ⟨-, h⟩ | ⟨-, rows0, h1, h2⟩ | ⟨-, rows0, trend, h1, h2⟩
  · exact frameOk_ts h
  · refine frameOk_merge (frameOk_sr hE hn h1) ?_ h2
    intro ds q drows md hl hd
    exact (frameOk_sr hE (by omega) hd).len
  · refine frameOk_merge (frameOk_dt h1) ?_ h2
    intro ds q drows md hl hd
    exact (frameOk_dt (dir := True) hd).len

end Verif
