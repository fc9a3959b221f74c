import Verif.Props.Latest
import Verif.Props.Delta
import Verif.Spec.Answers

/-!
# When a univariate request is answered (C117)
-/

namespace Verif

open Spec PM

/-- a computation that returns -/
def Runs {ε α : Type} (x : Except ε α) : Prop := ∃ a, x = .ok a

theorem runs_ok {ε α : Type} (a : α) : Runs (.ok a : Except ε α) := ⟨a, rfl⟩

theorem runs_pure {ε α : Type} (a : α) : Runs (pure a : Except ε α) := ⟨a, rfl⟩

theorem runs_bind {ε α β : Type} {x : Except ε α} {f : α → Except ε β} (hx : Runs x)
    (hf : ∀ a, x = .ok a → Runs (f a)) : Runs (x >>= f) := by
  obtain ⟨a, ha⟩ := hx
  obtain ⟨b, hb⟩ := hf a ha
  exact ⟨b, ebind_ok.2 ⟨a, ha, hb⟩⟩

theorem runs_map {ε α β : Type} {x : Except ε α} (f : α → β) (hx : Runs x) : Runs (x.map f) := by
  obtain ⟨a, rfl⟩ := hx
  exact ⟨f a, rfl⟩

theorem runs_lift {α : Type} {x : Except PyErr α} (hx : Runs x) : Runs (lift x) := by
  obtain ⟨a, rfl⟩ := hx
  exact ⟨a, rfl⟩

/-! ### interpolation and trends -/

theorem interp_runs {l : List (Option ℚ)} {i : Nat} {v : ℚ} (h : l[i]? = some (some v)) : Runs (interp l) := by
  unfold interp
  rw [if_neg]
  · exact ⟨_, rfl⟩
  · have : (i, v) ∈ presentFrom 0 l := mem_presentFrom.2 ⟨by omega, by simpa using h⟩
    cases hp : presentFrom 0 l with
    | nil => rw [hp] at this; simp at this
    | cons a t => simp

theorem interp_length {l : List (Option ℚ)} {r : List ℚ} (h : interp l = .ok r) : r.length = l.length := by
  unfold interp at h
  split at h
  · cases h
  · cases h; simp

theorem trendDetection_runs {E : Env} (hT : Total E) {l : List ℚ} (hn : 12 ≤ l.length) (p : Option Nat) :
    Runs (trendDetection E l p) := by
  unfold trendDetection
  rw [if_neg (by omega)]
  exact hT.trend l p hn

theorem trendDetection_length {E : Env} (hE : E.WF) {l r : List ℚ} {p : Option Nat} (h : trendDetection E l p = .ok r) :
    r.length = l.length := by
  unfold trendDetection at h
  split at h
  · cases h; simp
  · exact hE.trend_len _ _ _ h

/-- a list of fewer than `n` labels misses one below `n` -/
theorem missed {n : Nat} {an : List Nat} (h : an.length < n) : ∃ i < n, i ∉ an := by
  by_contra hc
  push Not at hc
  have := (List.nodup_range.subperm (l₂ := an) (l₁ := List.range n) fun x hx => hc x (List.mem_range.1 hx)).length_le
  rw [List.length_range] at this
  omega

/-! ### the three models -/

theorem dtDetection_runs {E : Env} (hE : E.WF) (hT : Total E) {series trend : List ℚ} (hn : 12 ≤ series.length)
    (ht : trend.length = series.length) (alpha : PyFloat) (ratio : ℚ) (needTrend last : Bool) :
    Runs (dtDetection E series trend alpha ratio needTrend last) := by
  have hd : normalize series ≠ [] := normalize_ne (by rintro rfl; simp at hn)
  obtain ⟨an, model, h, hnd, -⟩ := C79_dynamic_threshold hE hd alpha ratio last
  unfold dtDetection
  refine runs_bind ⟨_, h⟩ ?_
  rintro ⟨an', md⟩ h'
  rw [h] at h'
  cases h'
  have hlen : an.length < series.length := by
    have h1 : an.length ≤ 2 * maxOutliersOf series.length ratio := by
      have := h
      unfold dtAnomalies at this
      obtain ⟨_, -, this⟩ := ebind_ok.1 this
      obtain ⟨_, -, this⟩ := ebind_ok.1 this
      have := epure_ok.1 this
      simp only [Prod.mk.injEq] at this
      rw [← this.1]
      refine (length_detectFuse ..).trans ?_
      rw [normalize_length]
    unfold maxOutliersOf at h1
    omega
  refine runs_bind ?_ ?_
  · unfold dtTrend
    split
    · refine runs_bind ?_ ?_
      · obtain ⟨i, hi, hm⟩ := missed hlen
        refine interp_runs (i := i) (v := series[i]) ?_
        simp [hi, hm]
      · intro f hf
        have := interp_length hf
        rw [List.length_map, List.length_zipIdx] at this
        exact trendDetection_runs hT (by omega) _
    · exact ⟨_, rfl⟩
  · intro t h2
    have hl : t.length = series.length := by
      unfold dtTrend at h2
      split at h2
      · obtain ⟨f, hf, h2⟩ := ebind_ok.1 h2
        have e1 := interp_length hf
        rw [List.length_map, List.length_zipIdx] at e1
        rw [trendDetection_length hE h2, e1]
      · cases h2; exact ht
    rw [if_neg (by simpa using hl)]
    exact ⟨_, rfl⟩

theorem extendSeries_runs (E : Env) {values : List ℚ} (hn : 3 ≤ values.length) (b : Bool) :
    Runs (extendSeries E values b) := by
  unfold extendSeries
  refine runs_bind ?_ fun _ _ => ⟨_, rfl⟩
  unfold predictNext
  dsimp only
  rw [if_neg]
  · exact ⟨_, rfl⟩
  · split
    · have key : ∀ (lo hi : ℚ) (l : List ℚ) (k : Nat) (acc : List ℚ), (aheadLoop lo hi l k acc).length = acc.length := by
        intro lo hi l
        induction l with
        | nil => intro k acc; cases k <;> simp [aheadLoop]
        | cons v t ih =>
          intro k acc
          cases k with
          | zero => simp [aheadLoop]
          | succ k =>
            rw [aheadLoop]
            split
            · rw [ih]; simp
            · rw [ih]
      rw [key]
      simp
    · rw [List.length_dropLast, List.length_drop]
      omega

theorem spectralScore_runs (E : Env) {values : List ℚ} (hn : 3 ≤ values.length) (b : Bool) :
    Runs (spectralScore E values b) := by
  unfold spectralScore
  exact runs_bind (extendSeries_runs E hn b) fun _ _ => ⟨_, rfl⟩

theorem srScores_runs (E : Env) {series : List ℚ} (hn : 12 ≤ series.length) (maxO : Nat) (last : Bool) :
    Runs (srScores E series maxO last) := by
  unfold srScores
  split
  · refine runs_bind (spectralScore_runs E (by omega) _) ?_
    intro sc _
    refine runs_bind (spectralScore_runs E ?_ _) fun _ _ => ⟨_, rfl⟩
    rw [List.length_append, List.length_take]
    simp only [List.length_cons, List.length_nil]
    have h45 : (((series.length : ℚ) * (45 / 100)).floor.toNat) ≤ series.length / 2 := by
      have : ((series.length : ℚ) * (45 / 100)).floor ≤ ((series.length / 2 : Nat) : Int) := by
        have h1 : (((series.length : ℚ) * (45 / 100)).floor : ℚ) ≤ (series.length : ℚ) * (45 / 100) := Rat.floor_le _
        have h2 : ((series.length : ℚ) * (45 / 100)) ≤ (series.length : ℚ) / 2 := by
          have : (0 : ℚ) ≤ series.length := by positivity
          linarith
        have h3 : ((((series.length : ℚ) * (45 / 100)).floor * 2 : Int) : ℚ) ≤ ((series.length : Int) : ℚ) := by
          push_cast
          linarith
        have h4 : ((series.length : ℚ) * (45 / 100)).floor * 2 ≤ (series.length : Int) := by exact_mod_cast h3
        omega
      omega
    set D := min (max maxO (((series.length : ℚ) / 10).floor.toNat)) (((series.length : ℚ) * (45 / 100)).floor.toNat)
      with hD
    have hD2 : D ≤ series.length / 2 := le_trans (min_le_right _ _) h45
    have hcut : ∀ o : Option Nat, (∀ i, o = some i → series.length - D ≤ i) → 6 ≤ o.getD (series.length - 1) := by
      intro o ho
      cases o with
      | none => simp; omega
      | some i => have := ho i rfl; simp; omega
    have := hcut ((List.range series.length).find? fun i => decide (series.length - D ≤ i) && decide (3 / 2 ≤ sc.getD i 0)) (by
      intro i hi
      have := List.find?_some hi
      simp only [Bool.and_eq_true, decide_eq_true_eq] at this
      exact this.1)
    omega
  · exact runs_bind (spectralScore_runs E (by omega) _) fun _ _ => ⟨_, rfl⟩

theorem srDetection_runs {E : Env} (hE : E.WF) (hT : Total E) {series : List ℚ} (hn : 12 ≤ series.length)
    (threshold : PyFloat) (ratio : ℚ) (needTrend last : Bool) :
    Runs (srDetection E series threshold ratio needTrend last) := by
  unfold srDetection
  refine runs_bind (srScores_runs E hn _ _) ?_
  rintro ⟨sc, model⟩ hsc
  dsimp only
  have tr : ∀ t : Except PyErr (List ℚ), (∃ r, t = .ok r ∧ r.length = series.length) →
      Runs (srTrend needTrend series.length t) := by
    rintro t ⟨r, rfl, hr⟩
    unfold srTrend
    split
    · simp only [hr, ne_eq, not_true_eq_false, if_false]
      exact ⟨_, rfl⟩
    · exact ⟨_, rfl⟩
  split
  · rename_i expected hex
    have hl : expected.length = series.length := by
      split at hex
      · unfold srExpectedLast at hex
        dsimp only at hex
        split at hex
        · cases hex
        · cases hex; simp
      · cases hex
        simp [srExpectedEntire, length_averageFilter]
    refine runs_bind (tr _ ?_) fun _ _ => ⟨_, rfl⟩
    obtain ⟨r, hr⟩ := trendDetection_runs hT (by omega : 12 ≤ expected.length) none
    exact ⟨r, hr, by rw [trendDetection_length hE hr, hl]⟩
  · refine runs_bind (tr _ ?_) fun _ _ => ⟨_, rfl⟩
    obtain ⟨r, hr⟩ := hT.trendNaN (series.set (series.length - 1) 0) (by simpa using hn)
    exact ⟨r, hr, by rw [hE.trendNaN_len _ _ hr]; simp⟩

theorem deltaLoop_runs (E : Env) {rem delta : Nat} {l : List ℚ} (h : delta + rem + 1 ≤ l.length) :
    Runs (deltaLoop E rem delta l) := by
  induction rem generalizing delta l with
  | zero => exact ⟨_, rfl⟩
  | succ m ih =>
    rw [deltaLoop]
    split
    · exact ⟨_, rfl⟩
    · refine runs_bind ?_ ?_
      · cases hg : getDelta delta l with
        | ok d => exact ⟨_, rfl⟩
        | error e =>
          have := ((C44_length delta l).2 e).1 hg
          omega
      · intro d hd
        rw [← length_getDelta hd] at h
        exact ih (by omega)

theorem mergeWithDelta_runs (E : Env) {rows : List Row} {series : List ℚ} (hn : 12 ≤ series.length) (ratio : ℚ)
    {run : List ℚ → ℚ → Except PyErr (List Row × ModelType)}
    (hr : ∀ ds q, ds.length = series.length → Runs (run ds q)) : Runs (mergeWithDelta E rows series ratio run) := by
  unfold mergeWithDelta
  refine runs_bind (deltaLoop_runs E (by omega)) ?_
  intro o ho
  split
  · exact ⟨_, rfl⟩
  · exact ⟨_, rfl⟩
  · rename_i delta ds hd
    dsimp only
    split
    · refine runs_bind (hr _ _ (deltaLoop_len ho).1) ?_
      rintro ⟨drows, md⟩ _
      have un : ∀ vs l, Runs (undelta delta vs l) := by
        intro vs l
        unfold undelta
        split
        · unfold reverseDelta
          rw [if_neg (by simp)]
          exact ⟨_, rfl⟩
        · exact ⟨_, rfl⟩
      exact runs_bind (un _ _) fun _ _ => runs_bind (un _ _) fun _ _ => ⟨_, rfl⟩
    · exact ⟨_, rfl⟩


theorem deOutlierStl_runs {E : Env} (hE : E.WF) (hT : Total E) {series : List ℚ} {p : Nat} (hp : 2 ≤ p)
    (hn : 2 * p < series.length) (adjust log : Bool) : Runs (deOutlierStl E adjust series p log) := by
  unfold deOutlierStl
  refine runs_bind (hT.stl _ _ _ _ hp hn) ?_
  intro d hd
  obtain ⟨l1, l2, l3⟩ := hE.stl_len _ _ _ _ _ hd
  dsimp only
  split
  · exact ⟨_, rfl⟩
  · refine hT.stl _ _ _ _ hp ?_
    simp [bfill, length_ffill, l1, l2, l3, hn]

theorem tsDecompose_runs {E : Env} (hE : E.WF) (hT : Total E) {series : List ℚ} {p : Nat} (hp : 2 ≤ p)
    (hn : 2 * p < series.length) (last : Bool) : Runs (tsDecompose E series p last) := by
  unfold tsDecompose
  refine runs_bind (deOutlierStl_runs hE hT hp hn _ _) ?_
  intro d _
  split
  · exact runs_map _ (deOutlierStl_runs hE hT hp hn _ _)
  · exact ⟨_, rfl⟩

/-- the number of labels in one of the two halves of a list -/
theorem filter_split (an : List Nat) (k : Nat) :
    (an.filter fun i => decide (k ≤ i)).length + (an.filter fun i => decide (i < k)).length = an.length := by
  induction an with
  | nil => rfl
  | cons a t ih =>
    by_cases h : k ≤ a
    · simp [h, Nat.not_lt.2 h]; omega
    · simp [h, Nat.lt_of_not_le h]; omega

theorem tsTrend_runs {n p : Nat} {an : List Nat} {trend : List ℚ} (hp : 2 ≤ p) (hl : trend.length = n)
    (h : an.length + p / 4 < n) (hw : p < n) : Runs (tsTrend n p an trend) := by
  unfold tsTrend
  split
  · dsimp only
    rw [if_neg (by omega : ¬ p / 2 = 0)]
    obtain ⟨i, hi, hm, hw⟩ : ∃ i, i < n ∧ i ∉ an ∧
        (((p / 2 : Nat) : ℚ) / 2 ≤ ((an.filter fun i => decide (n - p / 2 ≤ i)).length : ℚ) → i < n - p / 2) := by
      by_cases hc : ((p / 2 : Nat) : ℚ) / 2 ≤ ((an.filter fun i => decide (n - p / 2 ≤ i)).length : ℚ)
      · have hc' : p / 2 ≤ 2 * (an.filter fun i => decide (n - p / 2 ≤ i)).length := by
          have : ((p / 2 : Nat) : ℚ) ≤ ((2 * (an.filter fun i => decide (n - p / 2 ≤ i)).length : Nat) : ℚ) := by
            push_cast at hc ⊢
            linarith
          exact_mod_cast this
        have hs := filter_split an (n - p / 2)
        obtain ⟨i, hi, hm⟩ := missed (n := n - p / 2) (an := an.filter fun i => decide (i < n - p / 2)) (by omega)
        refine ⟨i, by omega, ?_, fun _ => hi⟩
        intro hia
        exact hm (List.mem_filter.2 ⟨hia, by simpa using hi⟩)
      · obtain ⟨i, hi, hm⟩ := missed (n := n) (an := an) (by omega)
        exact ⟨i, hi, hm, fun h => absurd h hc⟩
    refine interp_runs (i := i) (v := trend[i]'(by omega)) ?_
    rw [List.getElem?_map, List.getElem?_zipIdx, List.getElem?_eq_getElem (by omega)]
    simp only [Option.map_some, Nat.zero_add, Option.some.injEq]
    rw [if_neg]
    simp only [Bool.or_eq_true, List.contains_eq_mem, decide_eq_true_eq, Bool.and_eq_true, not_or, not_and, not_le]
    exact ⟨hm, hw⟩
  · exact ⟨_, rfl⟩

/-- with a share of at most three eighths the two tails and half of the wiped window leave a point -/
theorem room_left {n p : Nat} {r : ℚ} (hn : 12 ≤ n) (hN : n ≤ 17280) (hp : 2 * p < n) (hr : r ≤ 3 / 8) :
    2 * maxOutliersOf n (max r (ddiv 1 n)) + p / 4 < n := by
  have h0 : maxOutliersOf n (max r (ddiv 1 n)) ≤ maxOutliersOf n (3 / 8) := by
    have h1 : ddiv 1 n ≤ 3 / 8 := by
      have : ddiv ((1 : Nat) : ℚ) n ≤ 3 / 8 := by
        have h2 : ddiv ((1 : Nat) : ℚ) n ≤ 1 / 8 := by
          have e : roundSigned (1 / 8) = 1 / 8 := by decide +kernel
          rw [← e]
          unfold ddiv
          apply roundSigned_mono
          have : (8 : ℚ) ≤ n := by exact_mod_cast (by omega : 8 ≤ n)
          rw [div_le_div_iff₀ (by linarith) (by norm_num)]
          push_cast
          linarith
        linarith
      simpa using this
    exact maxOutliersOf_mono (max_le hr h1)
  have h2 : maxOutliersOf n (3 / 8) ≤ allowance n (3 / 8) := by
    refine (maxOutliersOf_le _ _).trans (dAllowance_le ?_)
    rw [abs_lt]
    have hq : (n : ℚ) ≤ 17280 := by exact_mod_cast hN
    constructor
    · have : (0 : ℚ) ≤ (n : ℚ) * (3 / 8) := by positivity
      have : (0 : ℤ) ≤ ⌈(n : ℚ) * (3 / 8)⌉ := Int.ceil_nonneg this
      linarith
    · have : ⌈(n : ℚ) * (3 / 8)⌉ ≤ 6480 := by
        apply Int.ceil_le.2
        push_cast
        linarith
      linarith
  have h3 : 8 * allowance n (3 / 8) ≤ 3 * n + 7 := by
    unfold allowance
    have : ⌈(n : ℚ) * (3 / 8)⌉ ≤ (3 * (n : Int) + 7) / 8 := by
      apply Int.ceil_le.2
      have : (3 * (n : Int)) ≤ 8 * ((3 * (n : Int) + 7) / 8) := by omega
      have : ((3 * (n : Int) : Int) : ℚ) ≤ ((8 * ((3 * (n : Int) + 7) / 8) : Int) : ℚ) := by exact_mod_cast this
      push_cast at this ⊢
      linarith
    omega
  have h4 : maxOutliersOf n (3 / 8) ≤ n / 2 - 1 := min_le_right _ _
  omega

theorem tsDetection_runs {E : Env} (hE : E.WF) (hT : Total E) {series : List ℚ} {p : Nat} (hn : 12 ≤ series.length)
    (hN : series.length ≤ 17280) (hp : 2 ≤ p) (hpn : 2 * p < series.length) {ratio : ℚ} (hr : ratio ≤ 3 / 8)
    (alpha : PyFloat) (needTrend last : Bool) : Runs (tsDetection E series p ratio alpha needTrend last) := by
  unfold tsDetection
  dsimp only
  rw [if_neg (by norm_num; linarith), if_neg (by omega), if_neg (by omega)]
  refine runs_bind (tsDecompose_runs hE hT hp hpn last) ?_
  intro d hd
  obtain ⟨l1, l2, l3⟩ := tsDecompose_len hE hd
  have e1 : (List.zipWith (· - ·) series d.seasonal).length = series.length := by simp [l2]
  have e2 : (List.zipWith (· - ·) (List.zipWith (· - ·) series d.seasonal) d.trend).length = series.length := by
    simp [l1, l2]
  have hne : normalize (List.zipWith (· - ·) series d.seasonal) ≠ [] :=
    normalize_ne (by intro e; rw [e] at e1; simp at e1; omega)
  obtain ⟨an, model, ha, -⟩ := C79_seasonal hE hne
    (rem := normalize (List.zipWith (· - ·) (List.zipWith (· - ·) series d.seasonal) d.trend))
    (by rw [normalize_length, normalize_length, e1, e2]) alpha (max ratio (ddiv 1 series.length)) last
  refine runs_bind ⟨_, ha⟩ ?_
  rintro ⟨an', md⟩ h'
  rw [ha] at h'
  cases h'
  have hlen : an.length ≤ 2 * maxOutliersOf series.length (max ratio (ddiv 1 series.length)) := by
    unfold tsAnomalies at ha
    obtain ⟨_, -, ha⟩ := ebind_ok.1 ha
    obtain ⟨_, -, ha⟩ := ebind_ok.1 ha
    obtain ⟨_, -, ha⟩ := ebind_ok.1 ha
    obtain ⟨_, -, ha⟩ := ebind_ok.1 ha
    have := epure_ok.1 ha
    simp only [Prod.mk.injEq] at this
    rw [← this.1]
    refine (length_detectFuse ..).trans ?_
    rw [normalize_length, e1]
  have := room_left (p := p) hn hN hpn hr
  exact runs_bind (tsTrend_runs hp l1 (show an.length + p / 4 < series.length by omega) (by omega)) fun _ _ => ⟨_, rfl⟩

theorem run_runs {E : Env} (hE : E.WF) (hT : Total E) (M : Model) {series : List ℚ} {p : Nat} (hn : 12 ≤ series.length)
    (hN : series.length ≤ 17280) {ratio : ℚ} (hp : 2 ≤ p → 2 * p < series.length ∧ ratio ≤ 3 / 8) (last : Bool) :
    Runs (M.run E series ratio p last) := by
  unfold Model.run
  split
  · rename_i h
    exact tsDetection_runs hE hT hn hN h (hp h).1 (hp h).2 _ _ _
  split
  · refine runs_bind (srDetection_runs hE hT hn _ _ _ _) ?_
    rintro ⟨rows, md⟩ _
    exact runs_bind (mergeWithDelta_runs E hn _ fun ds q hl => srDetection_runs hE hT (by omega) _ _ _ _) fun _ _ => ⟨_, rfl⟩
  · refine runs_bind (trendDetection_runs hT hn _) ?_
    intro trend ht
    have hl := trendDetection_length hE ht
    refine runs_bind (dtDetection_runs hE hT hn hl _ _ _ _) ?_
    rintro ⟨rows, md⟩ _
    exact runs_bind (mergeWithDelta_runs E hn _ fun ds q hd => dtDetection_runs hE hT (by omega) (by omega) _ _ _ _)
      fun _ _ => ⟨_, rfl⟩

/-! ### filling -/

theorem stepLoop_runs {f : Nat → Nat → List (Option ℚ) → Except PyErr (Option ℚ)} {onErr : IfException}
    (hf : onErr = .fillWithNone ∨ ∀ i j full, Runs (f i j full)) (n i j : Nat) (idx : List Nat)
    (full : List (Option ℚ)) : Runs (stepLoop f onErr n i j idx full) := by
  induction n generalizing i j idx full with
  | zero => exact ⟨_, rfl⟩
  | succ n ih =>
    cases idx with
    | nil => exact ⟨_, rfl⟩
    | cons k t =>
      rw [stepLoop]
      split
      · exact ih ..
      · split
        · exact ih ..
        · rename_i e he
          rcases hf with rfl | hf
          · exact ih ..
          · obtain ⟨v, hv⟩ := hf i j full
            rw [hv] at he
            cases he

theorem fillLast_runs {P : FillProc} (h : P.Good) : Runs P.fillLast := by
  have key : ∀ (n i j : Nat) (idx : List Nat) (full : List (Option ℚ)), j + idx.length = P.values.length →
      Runs (stepLoop (fun _ j _ => funcLast P.values j) .raise n i j idx full) := by
    intro n
    induction n with
    | zero => intro i j idx full _; exact ⟨_, rfl⟩
    | succ n ih =>
      intro i j idx full hj
      cases idx with
      | nil => exact ⟨_, rfl⟩
      | cons k t =>
        rw [List.length_cons] at hj
        rw [stepLoop]
        split
        · exact ih _ _ _ _ (by omega)
        · have : funcLast P.values j = .ok (some (P.values[j - 1]'(by omega))) := by
            unfold funcLast
            rw [List.getElem?_eq_getElem (by omega)]
          rw [this]
          exact ih _ _ _ _ (by rw [List.length_cons]; omega)
  exact key _ _ _ _ _ (by rw [Nat.zero_add]; exact h.len)

theorem init_present_runs {obs : List (Nat × ℚ)} {n : Nat} {F : List (Option ℚ)} (hg : Gapped obs n)
    (hk : Keeps obs F) (hl : F.length = n) :
    Runs (FillProc.init ((presentFrom 0 F).map fun x => (x.1 : Int)) ((presentFrom 0 F).map (·.2))) := by
  have hg' := presentFrom_gapped hg hk hl
  refine init_complete (by simp) ?_ ?_
  · rw [List.pairwise_map]
    exact hg'.ascending.imp fun h => by exact_mod_cast h
  · obtain ⟨v, hv⟩ := hg'.first
    cases hp : presentFrom 0 F with
    | nil => rw [hp] at hv; simp at hv
    | cons a t =>
      have ha := hg'.ascending
      rw [hp, List.pairwise_cons] at ha
      rw [hp, List.mem_cons] at hv
      rcases hv with rfl | hv
      · rfl
      · have := ha.1 _ hv
        simp at this

theorem fillAuto_runs {E : Env} (hE : E.WF) (hT : Total E) {P : FillProc} (h : P.Good) (hn : P.need = true)
    (h4 : 4 ≤ P.values.length) (period : Nat) : Runs (P.fillAuto E.spline period) := by
  have hsp := WF.splineLaws hE
  suffices hb : Runs (P.autoBody E.spline (max period 1)) by
    obtain ⟨l, hl⟩ := hb
    exact ⟨l, by unfold FillProc.fillAuto; rw [hl]⟩
  have hvne : P.values ≠ [] := by rintro e; rw [e] at h4; simp at h4
  have hlh : npMin P.values ≤ npMax P.values := le_npMax (npMin_mem hvne)
  have hob : ∀ a ∈ P.obs, npMin P.values ≤ a.2 ∧ a.2 ≤ npMax P.values := by
    intro a ha
    have := (List.of_mem_zip (a := a.1) (b := a.2) ha).2
    exact ⟨npMin_le this, le_npMax this⟩
  have hn2 := (h.need.1 hn).2
  unfold FillProc.autoBody
  split
  swap
  · exact ⟨_, rfl⟩
  rw [if_neg (by omega)]
  have hgap := h.gapped
  refine runs_bind (hT.spline _ _ _ ?_ h.len h4 ?_) ?_
  · have := hgap.ascending
    unfold FillProc.obs at this
    have e : P.indices = (P.indices.zip P.values).map (·.1) := by
      rw [← List.unzip_fst, List.unzip_zip h.len]
    rw [e]
    exact List.pairwise_map.2 this
  · intro k hk
    obtain ⟨v, hv⟩ := mem_zip_of_mem h.len hk
    exact hgap.inside _ hv
  intro sp hspl
  have hlen : sp.length = P.allCount := hsp.len _ _ _ _ hspl
  have hkeep0 : Keeps P.obs (sp.map some) := by
    intro a ha
    have hin := h.gapped.inside a ha
    obtain ⟨k, hk, rfl⟩ := List.mem_iff_getElem.1 ha
    have hkl : k < P.indices.length := by
      unfold FillProc.obs at hk; rw [List.length_zip] at hk; omega
    have hkv : k < P.values.length := by rw [← h.len]; exact hkl
    have e1 : (P.obs[k]).1 = P.indices[k] := by simp [FillProc.obs]
    have e2 : (P.obs[k]).2 = P.values[k] := by simp [FillProc.obs]
    have eg : P.indices.getD k 0 = P.indices[k] := by simp [List.getD_eq_getElem?_getD, hkl]
    have := hsp.knot _ _ _ _ hspl k hkl (by rw [eg, ← e1]; exact hin)
    rw [getElem?_map_some, e2]
    rw [eg, ← e1] at this
    have hlt : (P.obs[k]).1 < sp.length := by omega
    rw [List.getD_eq_getElem?_getD, List.getD_eq_getElem?_getD,
      List.getElem?_eq_getElem hlt, List.getElem?_eq_getElem hkv] at this
    rw [List.getElem?_eq_getElem hlt]
    simpa using this
  obtain ⟨a1, a2, -⟩ := scatterLoop_spec P.values P.info (max period 1) hlh hob 0 h.covers
    (by
      intro p _ _
      constructor
      · exact fun hp => mem_zip_of_mem h.len hp
      · rintro ⟨v, hv⟩; exact (List.of_mem_zip hv).1)
    (F := sp.map some) (by simp [hlen]) hkeep0 (by intro p hp; omega) (by
      intro p _ hp
      refine ⟨sp[p]'(by omega), ?_⟩
      rw [getElem?_map_some, List.getElem?_eq_getElem])
  set F1 := scatterLoop P.values P.info (max period 1) (npMin P.values) (npMax P.values) 0 0 P.indices (sp.map some)
    with hF1
  have hF1l : F1.length = P.allCount := by rw [a1]; simpa using hlen
  refine runs_bind (init_present_runs hgap a2 hF1l) ?_
  intro Q hQ
  obtain ⟨q1, q2, q3, q4⟩ := init_present hgap a2 hF1l hQ
  have fin : ∀ F : List (Option ℚ), F.length = P.allCount → Keeps P.obs F →
      Runs (do
        let R ← FillProc.init ((presentFrom 0 F).map fun x => (x.1 : Int)) ((presentFrom 0 F).map (·.2))
        if R.need then pure (R.fillLinear.map some) else pure ((presentFrom 0 F).map fun x => some x.2) :
        Except PyErr (List (Option ℚ))) := by
    intro F f1 f2
    refine runs_bind (init_present_runs hgap f2 f1) ?_
    intro R _
    split <;> exact ⟨_, rfl⟩
  by_cases hQn : Q.need = true
  · simp only [hQn, if_true]
    refine runs_bind ?_ ?_
    · exact stepLoop_runs (.inl rfl) _ _ _ _ _
    · intro F2 hF2
      obtain ⟨t1, t2, t3⟩ := q1.toFill
      obtain ⟨s1, -, s3, -⟩ := stepLoop_spec (fun _ => True) (fun _ _ _ => True) q1.covers
        (by rw [t1]; omega) trivial (fun _ _ _ _ _ _ _ => ⟨fun _ _ => ⟨trivial, trivial⟩, fun _ => ⟨trivial, trivial⟩⟩) hF2
      refine fin F2 (by rw [s1, t1, q3]) ?_
      intro a ha
      have haQ : a ∈ Q.obs := by
        rw [q2]
        exact mem_presentFrom.2 ⟨by omega, by simpa using a2 _ ha⟩
      rw [s3 a.1 (.inr (List.of_mem_zip (a := a.1) (b := a.2) haQ).1)]
      exact t2 _ haQ
  · simp only [hQn]
    exact fin F1 hF1l a2

theorem fillUpOnDemand_runs {E : Env} (hE : E.WF) (hT : Total E) {P : FillProc} (h : P.Good)
    (h4 : 4 ≤ P.values.length) (mode : FillUpMode) (fixed : Option ℚ) (period : Nat) :
    Runs (fillUpOnDemand E.spline P mode fixed period) := by
  unfold fillUpOnDemand
  cases mode <;> dsimp only
  all_goals first
    | exact ⟨_, rfl⟩
    | split
      · first
        | exact ⟨_, rfl⟩
        | exact runs_map _ (fillLast_runs h)
        | exact runs_map _ (stepLoop_runs (.inr fun _ _ _ => ⟨_, rfl⟩) _ _ _ _ _)
        | exact runs_map _ (fillAuto_runs hE hT h ‹_› h4 _)
      · exact ⟨_, rfl⟩

theorem filled_runs {E : Env} (hE : E.WF) (hT : Total E) {M : Model} (hM : M.Sound) (h4 : 4 ≤ M.fill.values.length)
    {mode : FillUpMode} (hmode : mode = .fixed → M.mode = .fixed) (period : Nat) : Runs (M.filled E mode period) := by
  have hc : mode = .fixed → M.fill.need = true → M.fixed.bind finite? ≠ none := by
    intro h hn
    obtain ⟨q, hq⟩ := hM.constant (hmode h) hn
    rw [hq]
    simp [finite?]
  unfold Model.filled
  rw [if_neg (fun h => hc h.1 h.2.1 h.2.2)]
  refine runs_bind (runs_lift (fillUpOnDemand_runs hE hT hM.good h4 _ _ _)) ?_
  intro r hr
  split
  · exact ⟨_, rfl⟩
  · obtain ⟨full, rfl⟩ := filled_holeless (WF.splineLaws hE) hM.good hc (lift_ok.1 hr)
    rw [mapM_id_map]
    exact ⟨_, rfl⟩

/-! ### period detection -/

theorem calculatePeriod_runs {E : Env} (hE : E.WF) (hT : Total E) (s : List ℚ) : Runs (calculatePeriod E s) := by
  unfold calculatePeriod
  split
  · exact ⟨_, rfl⟩
  rename_i hn
  refine runs_bind ?_ ?_
  · unfold fitSeasons
    dsimp only
    refine runs_bind (hT.trend _ _ (by rw [length_smoothSpikes]; omega)) ?_
    intro t ht
    have hl := hE.trend_len _ _ _ ht
    rw [length_smoothSpikes] at hl
    split
    · exact ⟨_, rfl⟩
    refine runs_bind ?_ ?_
    · unfold correlogramDetector
      dsimp only
      rw [if_neg]
      · exact ⟨_, rfl⟩
      · rw [hE.acf_len, List.length_zipWith, length_smoothSpikes, hl, min_self]
        unfold maxPeriodOf
        omega
    · intro ps _
      split
      · exact ⟨_, rfl⟩
      split
      · exact ⟨_, rfl⟩
      split <;> exact ⟨_, rfl⟩
  · intro o _
    split
    · exact ⟨_, rfl⟩
    split
    · exact ⟨_, rfl⟩
    split <;> exact ⟨_, rfl⟩

theorem verifyLoop_runs {E : Env} (hE : E.WF) (hT : Total E) (n : Nat) (s : List ℚ) (p vp : Nat) :
    Runs (verifyLoop E n s p vp) := by
  induction n generalizing s p vp with
  | zero => exact ⟨_, rfl⟩
  | succ n ih =>
    rw [verifyLoop]
    split
    · exact ⟨_, rfl⟩
    · exact runs_bind (calculatePeriod_runs hE hT _) fun _ _ => ih ..

theorem spectrumDetect_runs {E : Env} (hE : E.WF) (hT : Total E) {s : List ℚ} (hn : 12 ≤ s.length) :
    Runs (spectrumDetect E s) := by
  unfold spectrumDetect
  rw [if_neg (by omega)]
  dsimp only
  refine runs_bind (calculatePeriod_runs hE hT _) fun _ _ => ?_
  split
  · exact ⟨_, rfl⟩
  · refine runs_bind (verifyLoop_runs hE hT _ _ _ _) fun _ _ => ?_
    split <;> exact ⟨_, rfl⟩

theorem simpleDetect_runs (E : Env) (s : List ℚ) {g : Granularity} (hg : g ≠ .microsecond) (i : Nat) :
    Runs (simpleDetect E s g i) := by
  unfold simpleDetect
  split
  · exact ⟨_, rfl⟩
  · refine runs_bind ?_ fun _ _ => ?_
    · cases g
      all_goals first
        | exact absurd rfl hg
        | exact ⟨_, rfl⟩
    · split <;> exact ⟨_, rfl⟩

theorem periodDetection_runs {E : Env} (hE : E.WF) (hT : Total E) {s : List ℚ} (hn : 12 ≤ s.length)
    {g : Granularity} {skip : Bool} (hg : skip = true ∨ g ≠ .microsecond) (i : Nat) :
    Runs (periodDetection E s g i skip) := by
  have key : Runs (do let q ← spectrumDetect E s; pure (q, 1) : Except PyErr (Nat × Nat)) :=
    runs_bind (spectrumDetect_runs hE hT hn) fun _ _ => ⟨_, rfl⟩
  have rest : ∀ o : Option Nat, Runs (match o with
      | some p => if p ≠ 0 then pure (p, 0) else do
          let q ← spectrumDetect E s
          pure (q, 1)
      | none => do
          let q ← spectrumDetect E s
          pure (q, 1) : Except PyErr (Nat × Nat)) := by
    intro o
    split
    · split
      · exact ⟨_, rfl⟩
      · exact key
    · exact key
  unfold periodDetection
  split
  · exact runs_bind ⟨_, rfl⟩ fun o _ => rest o
  · rename_i hs
    exact runs_bind (simpleDetect_runs E s (hg.resolve_left hs) i) fun o _ => rest o

/-! ### a configured model -/

/-- a model whose series passed the validator -/
structure Ready (M : Model) (idx : List Int) : Prop where
  ne : idx ≠ []
  init : FillProc.init idx M.values = .ok M.fill
  sound : M.Sound
  lo : 12 ≤ M.values.length
  hi : M.values.length ≤ 8640

/-- the number of points that are analysed when the series is filled in `mode` -/
def usedLen (M : Model) (mode : FillUpMode) : Nat :=
  if M.fill.need = true ∧ mode ≠ .no ∧ mode ≠ .zero ∧ mode ≠ .notFill then M.fill.allCount else M.values.length

theorem Ready.fillLen {M : Model} {idx : List Int} (h : Ready M idx) : M.fill.values.length = M.values.length := by
  rw [(FillProc.init_good h.ne h.init).2.2]

theorem Ready.usedLen_ge {M : Model} {idx : List Int} (h : Ready M idx) (mode : FillUpMode) : 12 ≤ usedLen M mode := by
  unfold usedLen
  have := h.fillLen
  have := h.sound.good.len
  have := h.sound.good.missing
  have := h.lo
  split <;> omega

theorem Ready.usedLen_le {M : Model} {idx : List Int} (h : Ready M idx) (mode : FillUpMode) : usedLen M mode ≤ 17280 := by
  unfold usedLen
  split
  · rename_i hn
    exact (h.sound.good.need.1 hn.1).2
  · have := h.hi
    omega

theorem Ready.full_len {E : Env} (hE : E.WF) {M : Model} {idx : List Int} (h : Ready M idx) {p : Nat}
    {full : Option (List ℚ × List Bool)} (hf : M.usedSeries E p = .ok full) :
    12 ≤ ((full.map (·.1)).getD M.values).length ∧ ((full.map (·.1)).getD M.values).length ≤ 17280 ∧
      (1 < p → ((full.map (·.1)).getD M.values).length = usedLen M M.mode) := by
  unfold Model.usedSeries at hf
  split at hf
  · cases hf
  split at hf
  · have e : _ = usedLen M M.mode := filled_length hE h.ne h.init hf
    rw [e]
    exact ⟨h.usedLen_ge _, h.usedLen_le _, fun _ => rfl⟩
  · rename_i hc
    cases hf
    have := h.lo
    have := h.hi
    refine ⟨by simpa using h.lo, by simp; omega, fun hp => absurd (.inl hp) hc⟩

theorem detectPeriod_runs {E : Env} (hE : E.WF) (hT : Total E) {M : Model} {idx : List Int} (h : Ready M idx)
    {skip : Bool} (hg : skip = true ∨ M.gran ≠ .microsecond) : Runs (M.detectPeriod E skip) := by
  have hlo := h.lo
  unfold Model.detectPeriod
  rw [if_neg fun hc => by
    obtain ⟨q, hq⟩ := h.sound.constant hc.1 hc.2.1
    rw [hq] at hc
    exact nomatch hc.2.2]
  dsimp only
  split
  · refine runs_bind (filled_runs hE hT h.sound (by rw [h.fillLen]; omega) ?_ _) ?_
    · split
      · rintro ⟨⟩
      · exact id
    · intro full hf
      refine runs_lift (periodDetection_runs hE hT ?_ hg _)
      have e : _ = usedLen M _ := filled_length hE h.ne h.init hf
      rw [e]
      exact h.usedLen_ge _
  · exact runs_bind ⟨none, rfl⟩ fun o ho => by
      cases ho
      exact runs_lift (periodDetection_runs hE hT (by simpa using hlo) hg _)

theorem maxRatio_le {M : Model} {r : ℚ} (h : M.ratio = .fin r) (h0 : 0 ≤ r) (last : Bool) :
    ∃ r' : ℚ, M.maxRatio last = .fin r' ∧ r' ≤ r := by
  unfold Model.maxRatio
  split
  · rename_i hm
    rw [h]
    refine ⟨_, rfl, max_le ?_ (min_le_right _ _)⟩
    simp only [Bool.and_eq_true, decide_eq_true_eq] at hm
    nlinarith [hm.2]
  · exact ⟨r, h, le_rfl⟩

theorem usedSeries_runs {E : Env} (hE : E.WF) (hT : Total E) {M : Model} {idx : List Int} (h : Ready M idx) {p : Nat}
    (hd : 1 < p → M.fill.missingRatio ≤ 1 / 2) : Runs (M.usedSeries E p) := by
  unfold Model.usedSeries
  rw [if_neg (fun hc => absurd hc.2 (not_lt.2 (hd hc.1)))]
  split
  · exact filled_runs hE hT h.sound (by rw [h.fillLen]; have := h.lo; omega) id _
  · exact ⟨_, rfl⟩

/-- the part of a run after the period is known -/
theorem select_tail_runs {E : Env} (hE : E.WF) (hT : Total E) {M : Model} {idx : List Int} (h : Ready M idx) {r : ℚ}
    (hr : M.ratio = .fin r) (h0 : 0 ≤ r) {last : Bool} {asked : Option Nat} {p : Nat} {src : Option Nat}
    (hu : M.usedPeriod E asked = .ok (p, src)) (hd : 1 < p → M.fill.missingRatio ≤ 1 / 2)
    (hp : 1 < p → 2 * p < usedLen M M.mode ∧ r ≤ 3 / 8) : Runs (M.select E asked last) := by
  obtain ⟨r', hr', hle⟩ := maxRatio_le hr h0 last
  unfold Model.select
  refine runs_bind ⟨_, hu⟩ ?_
  intro o ho
  rw [hu] at ho
  cases ho
  dsimp only
  refine runs_bind (usedSeries_runs hE hT h hd) ?_
  intro full hf
  obtain ⟨l1, l2, l3⟩ := h.full_len hE hf
  rw [hr']
  dsimp only
  refine runs_bind (runs_lift (run_runs hE hT M l1 l2 ?_ last)) fun _ _ => ⟨_, rfl⟩
  intro h2
  rw [l3 h2]
  exact ⟨(hp h2).1, hle.trans (hp h2).2⟩

theorem select_runs_asked {E : Env} (hE : E.WF) (hT : Total E) {M : Model} {idx : List Int} (h : Ready M idx) {r : ℚ}
    (hr : M.ratio = .fin r) (h0 : 0 ≤ r) (last : Bool) {p : Nat} (hd : 1 < p → M.fill.missingRatio ≤ 1 / 2)
    (hp : 1 < p → 2 * p < usedLen M M.mode ∧ r ≤ 3 / 8) : Runs (M.select E (some p) last) :=
  select_tail_runs hE hT h hr h0 (src := none) rfl hd hp

theorem select_runs_detected {E : Env} (hE : E.WF) (hT : Total E) {M : Model} {idx : List Int} (h : Ready M idx) {r : ℚ}
    (hr : M.ratio = .fin r) (h0 : 0 ≤ r) (last : Bool) (hg : M.gran ≠ .microsecond) (hle : r ≤ 3 / 8) :
    Runs (M.select E none last) := by
  have hu : Runs (M.usedPeriod E none) := by
    unfold Model.usedPeriod
    dsimp only
    split
    · exact ⟨_, rfl⟩
    · exact runs_map _ (detectPeriod_runs hE hT h (.inr hg))
  obtain ⟨⟨p, src⟩, hu⟩ := hu
  have hpp := hu
  unfold Model.usedPeriod at hpp
  dsimp only at hpp
  refine select_tail_runs hE hT h hr h0 hu ?_ ?_
  all_goals
    intro h1
    split at hpp
    · cases hpp; omega
    rename_i hm
  · exact not_lt.1 hm
  · obtain ⟨q, hq, e⟩ := emap_ok.1 hpp
    simp only [Prod.mk.injEq] at e
    have hd := detectPeriod_spec hE h.ne h.init (p := q.1) (src := q.2) hq
    rw [e.1] at hd
    exact ⟨hd, hle⟩

theorem detect_runs {E : Env} (hE : E.WF) (hT : Total E) {M : Model} {idx : List Int} (h : Ready M idx)
    {asked : Option Nat} {last : Bool} (hs : Runs (M.select E asked last)) : Runs (M.detect E none asked last) := by
  unfold Model.detect
  dsimp only
  refine runs_bind hs ?_
  rintro ⟨rows, p, model, src⟩ _
  dsimp only
  refine runs_bind ?_ fun _ _ => ⟨_, rfl⟩
  unfold Model.spectrum
  repeat' split
  all_goals first
    | exact ⟨_, rfl⟩
    | exact runs_bind (detectPeriod_runs hE hT h (.inl rfl)) fun _ _ => ⟨_, rfl⟩

theorem detect_length {E : Env} (hE : E.WF) {M : Model} {idx : List Int} (h : Ready M idx)
    {asked : Option Nat} {last : Bool} {rows : List Row} {p : Nat} {model : ModelType}
    (hd : M.detect E none asked last = .ok (rows, p, model)) : rows.length = M.values.length := by
  unfold Model.detect at hd
  dsimp only at hd
  obtain ⟨⟨rows1, p1, m1, s1⟩, h1, hd⟩ := ebind_ok.1 hd
  obtain ⟨_, -, hd⟩ := ebind_ok.1 hd
  have := epure_ok.1 hd
  simp only [Prod.mk.injEq] at this
  obtain ⟨full, ratio, rows0, hs⟩ := select_ok h1
  have hf := (frameOk_selected hE h.ne h.init (by have := h.lo; omega) hs).1
  rw [← this.1, List.length_map, ← hf.values, List.length_map]

theorem finish_runs {mode : PyVal} {stamps : List PyVal} {rows : List Row} (hl : rows.length = stamps.length)
    (hne : 0 < rows.length) (p : Nat) (model : ModelType) {sens : Int} (h0 : 0 ≤ sens) (h1 : sens ≤ 100)
    (bv : BoundaryVersion) (g : Granularity) : Runs (finish mode stamps rows p model sens bv g) := by
  unfold finish
  rw [if_neg (by omega)]
  split
  · exact runs_bind (C32_margins_computed rows h0 h1 model bv) fun _ _ => ⟨_, rfl⟩
  · refine runs_bind ?_ ?_
    · unfold getMarginsLast
      split
      · obtain ⟨o, ho⟩ : ∃ o, (marginsV1 rows sens model).getLast? = some o := by
          rw [← Option.ne_none_iff_exists', ne_eq, List.getLast?_eq_none_iff]
          intro e
          have := congrArg List.length e
          rw [marginsV1_eq, length_refineMargins (length_v1Margins ..), List.length_nil] at this
          omega
        rw [ho]
        exact ⟨_, rfl⟩
      · split
        · rename_i x hx
          have h30 : 3 / 10 ≤ x.2 := C32_units_bounded _ _ x.2
            (List.of_mem_zip (b := x.2) (a := x.1) (List.mem_of_getLast? hx)).2
          obtain ⟨m, hm⟩ := C32_margin_computed h30 h0 h1 x.1.value x.1.expected x.1.anom
          exact ⟨_, by simp only [pointV2Last, hm, Bind.bind, Except.bind]; rfl⟩
        · rename_i hx
          exfalso
          rw [List.getLast?_eq_none_iff, List.zip_eq_nil_iff] at hx
          rcases hx with hx | hx
          · simp [hx] at hne
          · have := congrArg List.length hx
            rw [rowUnits, length_boundaryUnits, List.length_map, List.length_nil] at this
            omega
    · intro o _
      split
      · exact ⟨_, rfl⟩
      · rename_i hx
        rw [List.getLast?_eq_none_iff] at hx
        rw [hx, List.length_nil] at hl
        omega

end Verif
