import Verif.Spec.Period
import Verif.Props.Detectors
import Verif.Props.Gcv
import Verif.Props.Table
import Verif.Props.Periods
import Verif.Props.Sparse

/-!
# Periods suggested by the calendar
-/

namespace Verif

open Spec

/-! ### Spikes -/

/-- a value of the series, or none for a spike -/
def calmAt (E : Env) (l : List ℚ) : List (Option ℚ) :=
  l.map fun x => if 3 ≤ |x - npMean l| / (E.std l + 1 / 100000000) then none else some x

theorem smoothSpikes_eq (E : Env) (l : List ℚ) : smoothSpikes E l =
    (calmAt E l).zipIdx.map fun x => x.1.getD (npInterp (obsKnots (calmAt E l)) (x.2 : Nat)) := rfl

theorem spike_iff {E : Env} (hE : E.WF) (l : List ℚ) (x : ℚ) :
    3 ≤ |x - npMean l| / (E.std l + 1 / 100000000) ↔ Spike E.sqrt l x := by
  have h : (0 : ℚ) < E.std l + 1 / 100000000 := by
    have := hE.sqrt_nonneg (npVar l)
    unfold Env.std
    linarith
  rw [le_div_iff₀ h]
  unfold Spike Env.std
  norm_num [npVar, npMean, variance, mean]

open Classical in
theorem calmAt_get {E : Env} (hE : E.WF) {l : List ℚ} {i : Nat} {x : ℚ} (h : l[i]? = some x) :
    (calmAt E l)[i]? = some (if Spike E.sqrt l x then none else some x) := by
  unfold calmAt
  rw [List.getElem?_map, h]
  simp only [Option.map_some, spike_iff hE]

theorem calm_iff {E : Env} (hE : E.WF) {l : List ℚ} {a : Nat} {u : ℚ} :
    Calm E.sqrt l a u ↔ (a, u) ∈ presentFrom 0 (calmAt E l) := by
  rw [mem_presentFrom]
  simp only [Nat.zero_le, true_and, Nat.sub_zero]
  constructor
  · rintro ⟨h, hs⟩
    rw [calmAt_get hE h, if_neg hs]
  · intro h
    rcases hl : l[a]? with - | x
    · exfalso
      unfold calmAt at h
      rw [List.getElem?_map, hl] at h
      cases h
    · rw [calmAt_get hE hl] at h
      split at h
      · cases h
      · rename_i hs
        simp only [Option.some.injEq] at h
        subst h
        exact ⟨hl, hs⟩

theorem smoothSpikes_spec {E : Env} (hE : E.WF) (l : List ℚ) : Despiked E.sqrt l (smoothSpikes E l) := by
  have hs := presentFrom_sorted (calmAt E l) 0
  have hget : ∀ {i : Nat} {o : Option ℚ}, (calmAt E l)[i]? = some o →
      (smoothSpikes E l)[i]? = some (o.getD (npInterp ((presentFrom 0 (calmAt E l)).map fun x => ((x.1 : ℚ), x.2)) i)) := by
    intro i o h
    rw [smoothSpikes_eq, List.getElem?_map, List.getElem?_zipIdx, h]
    simp [obsKnots]
  refine ⟨length_smoothSpikes E l, ?_, ?_, ?_, ?_⟩
  · rintro i x ⟨h, hn⟩
    rw [hget (calmAt_get hE h), if_neg hn]
    rfl
  · rintro i x a u b v h hsp ⟨ha, hca, hma⟩ ⟨hb, hcb, hmb⟩
    rw [hget (calmAt_get hE h), if_pos hsp, Option.getD_none]
    rw [npInterp_seg hs ((calm_iff hE).1 hca) ((calm_iff hE).1 hcb) ha hb.le]
    · congr 1
      ring
    · intro c hc hlt
      exact hma c.1 c.2 ((calm_iff hE).2 hc) hlt
    · intro c hc hle
      have hc' := (calm_iff hE).2 hc
      refine hmb c.1 c.2 hc' (lt_of_le_of_ne hle ?_)
      rintro rfl
      rw [hc'.1] at h
      cases h
      exact hc'.2 hsp
  · rintro i x b v h hsp hno ⟨hb, hcb, hmb⟩
    rw [hget (calmAt_get hE h), if_pos hsp, Option.getD_none]
    rw [npInterp_first hs ((calm_iff hE).1 hcb) hb.le]
    intro c hc
    have hc' := (calm_iff hE).2 hc
    exact hmb c.1 c.2 hc' (hno _ _ hc')
  · rintro i x a u h hsp ⟨ha, hca, hma⟩ hno
    rw [hget (calmAt_get hE h), if_pos hsp, Option.getD_none]
    rw [npInterp_last hs ((calm_iff hE).1 hca) ha]
    intro c hc
    have hc' := (calm_iff hE).2 hc
    exact hma c.1 c.2 hc' (hno _ _ hc')

/-! ### The test of one period -/

theorem capped_spec (f32 : ℚ → ℚ) (rnd : Nat → Nat) (l : List ℚ) {period : Nat} (hp : 0 < period) :
    SeasonCapped f32 l period (removeAnomalyInBucket f32 rnd l period) := by
  refine ⟨by simp [removeAnomalyInBucket], fun p v hv => ?_⟩
  have hself := phase_self hp l p
  rw [hv] at hself
  set sub := phase period (p % period) l with hsub
  have hne : sub ≠ [] := by
    intro hc
    rw [hc] at hself
    simp at hself
  have e : seasonOf l period p = sub := (phase_eq_seasonOf ..).symm
  refine ⟨fastMedian rnd 0 (sub.map f32),
    fastMedian rnd 0 ((sub.map fun x => x - fastMedian rnd 0 (sub.map f32)).map f32), ?_, ?_, ?_⟩
  · rw [e]
    exact C34_fast_median rnd 0 (by simpa using hne)
  · rw [e]
    have := C34_fast_median rnd 0 (d := (sub.map fun x => x - fastMedian rnd 0 (sub.map f32)).map f32) (by simpa using hne)
    rw [List.map_map] at this ⊢
    exact this
  · unfold removeAnomalyInBucket
    rw [List.getElem?_map, List.getElem?_zipIdx, hv]
    simp only [Option.map_some, Nat.zero_add, Option.some.injEq]
    rw [← hsub]
    unfold despikePhase
    dsimp only
    rw [List.getD_eq_getElem?_getD, List.getElem?_map, hself]
    have hE : EPS = 1 / 10 ^ 8 := by unfold EPS; norm_num
    simp only [Option.map_some, Option.getD_some, hE, ge_iff_le]

theorem checkPeriod_iff (E : Env) {l : List ℚ} {p : Nat} (hp : 0 < p) (hl : 2 * p ≤ l.length) (detrend : Bool)
    (hv : ¬ Near (variance l) 0) :
    checkPeriod E l p detrend = true ↔ Explains E.f32 l p (if detrend then shareDetrended p else share p) := by
  have hc : periodConfig p detrend = if detrend then shareDetrended p else share p := by
    unfold periodConfig share shareDetrended
    cases detrend <;> simp <;> split <;> norm_num
  have hlt : periodConfig p detrend < 1 := by
    unfold periodConfig
    split_ifs <;> norm_num
  unfold checkPeriod Explains
  dsimp only
  rw [C40_error hp (by simpa using hl), ← hc, decide_eq_true_iff]
  by_cases h : isClose (looMse (l.map E.f32) p) 0 = true
  · have h0 : isClose 0 0 = true := by decide +kernel
    rw [if_pos h, if_pos h0]
    exact ⟨fun _ => ⟨hv, .inl ((isClose_iff _ _).1 h)⟩, fun _ => hlt⟩
  · rw [if_neg h, if_neg h]
    have hn : ¬ Near (looMse (l.map E.f32) p) 0 := fun hh => h ((isClose_iff _ _).2 hh)
    exact ⟨fun hh => ⟨hv, .inr hh⟩, fun hh => hh.2.resolve_left hn⟩

theorem tested {E : Env} (hE : E.WF) {values : List ℚ} {p : Nat} (hp : 4 ≤ p) (hl : 2 * p < values.length) :
    Tested E.sqrt E.f32 values p (isValidPeriod E values p = true) := by
  have hne : values ≠ [] := by rintro rfl; simp at hl
  have hln : (normalize values).length = values.length := normalize_length values
  have hw : p / 2 * 2 + 1 ≤ (normalize values).length := by omega
  obtain ⟨m1, m2, -⟩ := C35_moving_median (f32 := E.f32) (window := p) true hw
  have hlz : (List.zipWith (· - ·) (normalize values) (medianFilter E.f32 (normalize values) p true)).length =
      values.length := by simp [m1, hln]
  refine ⟨normalize values, smoothSpikes E (normalize values), medianFilter E.f32 (normalize values) p true,
    smoothSpikes E (List.zipWith (· - ·) (normalize values) (medianFilter E.f32 (normalize values) p true)),
    _, normalize_spec hne, smoothSpikes_spec hE _,
    ⟨m1, fun i hi => m2 i hi (.inr rfl), fun hx i hi => C35_two_end hw hx hi⟩, smoothSpikes_spec hE _,
    capped_spec E.f32 E.rnd _ (by omega), ?_⟩
  unfold isValidPeriod
  dsimp only
  by_cases h1 : isClose (npVar (smoothSpikes E (normalize values))) 0 = true
  · have h1' : Near (variance (smoothSpikes E (normalize values))) 0 := (isClose_iff _ _).1 h1
    rw [if_pos h1]
    simp only [Bool.false_eq_true, false_iff, not_or, not_and]
    exact ⟨fun h => h.1 h1', fun h => absurd h1' h⟩
  · have h1' : ¬ Near (variance (smoothSpikes E (normalize values))) 0 := fun h => h1 ((isClose_iff _ _).2 h)
    rw [if_neg h1]
    have hl1 : 2 * p ≤ (smoothSpikes E (normalize values)).length := by rw [length_smoothSpikes]; omega
    have c1 := checkPeriod_iff E (p := p) (by omega) hl1 false h1'
    rw [if_neg (by simp)] at c1
    by_cases h2 : checkPeriod E (smoothSpikes E (normalize values)) p false = true
    · rw [if_pos h2]
      exact ⟨fun _ => .inl (c1.1 h2), fun _ => rfl⟩
    · rw [if_neg h2]
      set capped := removeAnomalyInBucket E.f32 E.rnd
        (smoothSpikes E (List.zipWith (· - ·) (normalize values) (medianFilter E.f32 (normalize values) p true))) p
        with hcap
      have hl2 : 2 * p ≤ capped.length := by
        rw [hcap]
        simp only [removeAnomalyInBucket, List.length_map, List.length_zipIdx]
        rw [length_smoothSpikes, hlz]
        omega
      by_cases h3 : isClose (npVar capped) 0 = true
      · have h3' : Near (variance capped) 0 := (isClose_iff _ _).1 h3
        rw [if_pos h3]
        simp only [Bool.false_eq_true, false_iff, not_or, not_and]
        exact ⟨fun h => h2 (c1.2 h), fun _ h => h.1 h3'⟩
      · have h3' : ¬ Near (variance capped) 0 := fun h => h3 ((isClose_iff _ _).2 h)
        rw [if_neg h3]
        have c2 := checkPeriod_iff E (p := p) (by omega) hl2 true h3'
        rw [if_pos rfl] at c2
        rw [c2]
        exact ⟨fun h => .inr ⟨h1', h⟩, fun h => (h.resolve_left fun h => h2 (c1.2 h)).2⟩

/-! ### The periods tried -/

theorem step_eq (i : Nat) : max i 1 = if i = 0 then 1 else i := by
  split <;> omega

/-- **C81** (periods tried): the calendar periods tried for a granularity are whole weeks and days (or the fixed
numbers of days, weeks, months and microseconds) counted in steps of the requested interval. -/
theorem C81_guesses (g : Granularity) (interval : Nat) : guessPeriod g interval = guesses g interval := by
  unfold guessPeriod guesses day
  rw [step_eq]
  set s := if interval = 0 then 1 else interval
  have h : ∀ a b c : Nat, 0 < b → a * b / (b * c) = a / c := fun a b c hb => by
    rw [Nat.mul_comm a b, Nat.mul_div_mul_left _ _ hb]
  cases g <;> simp only
  · rw [show 7 * 86400 = 168 * 3600 from rfl, show 86400 = 24 * 3600 from rfl, h _ _ _ (by decide), h _ _ _ (by decide)]
  · rw [show 7 * 86400 = 1440 * 7 * 60 from rfl, show 2 * 86400 = 1440 * 2 * 60 from rfl,
      show 86400 = 1440 * 60 from rfl, h _ _ _ (by decide), h _ _ _ (by decide), h _ _ _ (by decide)]

theorem find_first {gs : List Nat} {f : Nat → Bool} {p : Nat} (h : gs.find? f = some p) :
    ∃ before after, gs = before ++ p :: after ∧ f p = true ∧ ∀ q ∈ before, f q = false := by
  obtain ⟨h1, as, bs, h2, h3⟩ := List.find?_eq_some_iff_append.1 h
  exact ⟨as, bs, h2, h1, fun q hq => by simpa using h3 q hq⟩

theorem simple_aux {E : Env} (hE : E.WF) (values : List ℚ) (g : Granularity) (interval : Nat) :
    ∃ ok : Nat → Prop,
      (∀ p, 4 ≤ p → 2 * p < values.length → Tested E.sqrt E.f32 values p (ok p)) ∧
      ((∀ p ∈ guesses g interval, ¬ (4 ≤ p ∧ 2 * p < values.length ∧ ok p)) ∧
          simpleDetect E values g interval = .ok none ∨
       ∃ p first, FirstAccepted (guesses g interval) values.length ok p ∧ (guesses g interval).head? = some first ∧
        ((g = .microsecond ∧ simpleDetect E values g interval = .error .keyError) ∨
          (g ≠ .microsecond ∧ 2 * first < values.length ∧ p ∣ first ∧
            simpleDetect E values g interval = .ok (some first)) ∨
          (g ≠ .microsecond ∧ ¬ (2 * first < values.length ∧ p ∣ first) ∧
            simpleDetect E values g interval = .ok (some p)))) := by
  refine ⟨fun p => isValidPeriod E values p = true, fun p h1 h2 => tested hE h1 h2, ?_⟩
  have hacc : ∀ p, (!(decide (values.length ≤ p * 2) || decide (p < minPeriod)) && isValidPeriod E values p) = true ↔
      4 ≤ p ∧ 2 * p < values.length ∧ isValidPeriod E values p = true := by
    intro p
    have hm : minPeriod = 4 := rfl
    simp only [Bool.and_eq_true, Bool.not_eq_true', Bool.or_eq_false_iff, decide_eq_false_iff_not]
    constructor
    · rintro ⟨⟨a, b⟩, c⟩
      exact ⟨by omega, by omega, c⟩
    · rintro ⟨a, b, c⟩
      exact ⟨⟨by omega, by omega⟩, c⟩
  rw [← C81_guesses]
  unfold simpleDetect
  cases hf : (guessPeriod g interval).find? fun p =>
      !(decide (values.length ≤ p * 2) || decide (p < minPeriod)) && isValidPeriod E values p with
  | none =>
    left
    refine ⟨fun p hp h => ?_, rfl⟩
    have := List.find?_eq_none.1 hf p hp
    exact this ((hacc p).2 h)
  | some p =>
    right
    obtain ⟨as, bs, e, h1, h2⟩ := find_first hf
    have hfirst : FirstAccepted (guessPeriod g interval) values.length (fun p => isValidPeriod E values p = true) p :=
      ⟨as, bs, e, (hacc p).1 h1, fun q hq h => by
        have := h2 q hq
        rw [(hacc q).2 h] at this
        cases this⟩
    have hs : ∃ first, (guessPeriod g interval).head? = some first ∧
        standardPeriod g interval = if g = .microsecond then .error .keyError else .ok first := by
      cases g <;> first | exact ⟨_, rfl, rfl⟩ | (simp [guessPeriod] at e)
    obtain ⟨first, hh, hstd⟩ := hs
    refine ⟨p, first, hfirst, hh, ?_⟩
    dsimp only
    rw [hstd]
    by_cases hg : g = .microsecond
    · left
      rw [if_pos hg]
      exact ⟨hg, rfl⟩
    · right
      rw [if_neg hg]
      by_cases hc : 2 * first < values.length ∧ p ∣ first
      · left
        refine ⟨hg, hc.1, hc.2, ?_⟩
        show (if values.length ≤ first * 2 ∨ first % p ≠ 0 then pure (some p) else pure (some first) :
          Except PyErr (Option Nat)) = _
        rw [if_neg]
        · rfl
        · push Not
          exact ⟨by omega, Nat.mod_eq_zero_of_dvd hc.2⟩
      · right
        refine ⟨hg, hc, ?_⟩
        show (if values.length ≤ first * 2 ∨ first % p ≠ 0 then pure (some p) else pure (some first) :
          Except PyErr (Option Nat)) = _
        rw [if_pos]
        · rfl
        · by_contra hn
          push Not at hn
          exact hc ⟨by omega, Nat.dvd_of_mod_eq_zero hn.2⟩

/-- **C81** (calendar period): the simple detector tries the calendar periods of the granularity in order and takes the
first that is at least 4, fits more than twice and passes the test. It has no result if there is none. Otherwise
the result is the first calendar period of the granularity if that fits more than twice and is a multiple of the period
that passed, and the period that passed if not. For microseconds an accepted period raises KeyError. -/
theorem C81_simple {E : Env} (hE : E.WF) (values : List ℚ) (g : Granularity) (interval : Nat) :
    ∃ r, CalendarPeriod E.sqrt E.f32 values g interval r ∧
      simpleDetect E values g interval = if g = .microsecond ∧ r ≠ none then .error .keyError else .ok r := by
  obtain ⟨ok, hok, ⟨h1, h2⟩ | ⟨p, first, h1, h2, ⟨hg, h3⟩ | ⟨hg, h3, h4, h5⟩ | ⟨hg, h3, h4⟩⟩⟩ :=
    simple_aux hE values g interval
  · exact ⟨none, ⟨ok, hok, .inl ⟨h1, rfl⟩⟩, by rw [h2, if_neg (by simp)]⟩
  · by_cases hc : 2 * first < values.length ∧ p ∣ first
    · exact ⟨some first, ⟨ok, hok, .inr ⟨p, first, h1, h2, .inl ⟨hc.1, hc.2, rfl⟩⟩⟩, by rw [h3, if_pos ⟨hg, by simp⟩]⟩
    · exact ⟨some p, ⟨ok, hok, .inr ⟨p, first, h1, h2, .inr ⟨hc, rfl⟩⟩⟩, by rw [h3, if_pos ⟨hg, by simp⟩]⟩
  · exact ⟨some first, ⟨ok, hok, .inr ⟨p, first, h1, h2, .inl ⟨h3, h4, rfl⟩⟩⟩, by rw [h5, if_neg fun h => hg h.1]⟩
  · exact ⟨some p, ⟨ok, hok, .inr ⟨p, first, h1, h2, .inr ⟨h3, rfl⟩⟩⟩, by rw [h4, if_neg fun h => hg h.1]⟩

/-- square roots that make nothing a spike -/
def flatEnv : Env := { demoEnv with sqrt := fun x => if x ≤ 0 then 0 else max x 1 }

theorem flatEnv_WF : flatEnv.WF := { demoEnv_WF with
  sqrt_nonneg := fun x => by
    show 0 ≤ if x ≤ 0 then 0 else max x 1
    split
    · exact le_rfl
    · exact le_max_of_le_right zero_le_one
  sqrt_zero := fun x hx => by
    show (if x ≤ 0 then 0 else max x 1) = 0 ↔ x = 0
    split
    · rename_i h
      exact ⟨fun _ => le_antisymm h hx, fun _ => rfl⟩
    · rename_i h
      push Not at h
      exact ⟨fun e => absurd e (ne_of_gt (lt_max_of_lt_right one_pos)), fun e => absurd e (ne_of_gt h)⟩ }

/-- twenty-six weeks with a period of four weeks and a disturbance that changes sign after twelve weeks -/
def fourWeekly : List ℚ := (List.range 26).map fun (i : Nat) =>
  [0, 16, 4, 12].getD (i % 4) 0 +
    (if i / 12 % 2 = 0 then 5 else -5) * [1, -1, -1, -1, 1, 1, -1, 1, -1, 1, -1, 1].getD (i % 12) 0

/-- **C81** (defect): the detector may report a period it has tested and rejected: in this weekly series twelve weeks
fail the test and four weeks pass, and twelve weeks are reported. -/
theorem C81_rejected_period : ∃ (E : Env) (values : List ℚ), E.WF ∧ Tested E.sqrt E.f32 values 12 False ∧
    Tested E.sqrt E.f32 values 4 True ∧ simpleDetect E values .weekly 1 = .ok (some 12) := by
  have h12 : isValidPeriod flatEnv fourWeekly 12 = false := by decide +kernel
  have h4 : isValidPeriod flatEnv fourWeekly 4 = true := by decide +kernel
  refine ⟨flatEnv, fourWeekly, flatEnv_WF, ?_, ?_, ?_⟩
  · have := tested flatEnv_WF (values := fourWeekly) (p := 12) (by norm_num) (by simp [fourWeekly])
    rw [h12] at this
    simpa using this
  · have := tested flatEnv_WF (values := fourWeekly) (p := 4) (by norm_num) (by simp [fourWeekly])
    rw [h4] at this
    simpa using this
  · unfold simpleDetect
    have : ((guessPeriod .weekly 1).find? fun p =>
      !(decide (fourWeekly.length ≤ p * 2) || decide (p < minPeriod)) && isValidPeriod flatEnv fourWeekly p) = some 4 := by
      have hl : fourWeekly.length = 26 := by simp [fourWeekly]
      simp [guessPeriod, h12, h4, hl, minPeriod]
    rw [this]
    rfl

/-- a daily series whose weekly period is found -/
example : FirstAccepted (guesses .daily 1) weekly.length (fun p => isValidPeriod demoEnv weekly p = true) 7 ∧
    (match simpleDetect demoEnv weekly .daily 1 with | .ok r => r | .error _ => none) = some 7 :=
  ⟨⟨[], [], rfl, ⟨by norm_num, by simp [weekly], by decide +kernel⟩, by simp⟩, by decide +kernel⟩

/-- the periods tried for readings every two hours and every half minute -/
example : guesses .hourly 2 = [84, 12] ∧ guesses .secondly 30 = [20160, 2880, 5760] := by decide

/-! ### Peaks of the autocorrelation -/

theorem exists_max {n : Nat} {f : Nat → ℚ} {P : Nat → Prop} (h : ∃ j < n, P j) :
    ∃ j < n, P j ∧ ∀ k < n, P k → f k ≤ f j := by
  classical
  obtain ⟨j, hj, hP⟩ := h
  obtain ⟨m, hm, hmax⟩ := ((Finset.range n).filter P).exists_max_image f
    ⟨j, Finset.mem_filter.2 ⟨Finset.mem_range.2 hj, hP⟩⟩
  rw [Finset.mem_filter, Finset.mem_range] at hm
  exact ⟨m, hm.1, hm.2, fun k hk hkP => hmax k (Finset.mem_filter.2 ⟨Finset.mem_range.2 hk, hkP⟩)⟩

theorem getD_set_self {l : List ℚ} {i : Nat} (h : i < l.length) (x : ℚ) : (l.set i x).getD i 0 = x := by
  rw [List.getD_eq_getElem?_getD, List.getElem?_set_self h]
  rfl

theorem getD_set_ne {l : List ℚ} {i j : Nat} (h : j ≠ i) (x : ℚ) : (l.set i x).getD j 0 = l.getD j 0 := by
  rw [List.getD_eq_getElem?_getD, List.getElem?_set_ne (Ne.symm h), ← List.getD_eq_getElem?_getD]

theorem getD_le_argmax {l : List ℚ} {j : Nat} (hj : j < l.length) : l.getD j 0 ≤ l.getD (argmax l) 0 := by
  refine (argmax_spec (by rintro rfl; simp at hj)).2 _ ?_
  rw [List.getD_eq_getElem?_getD, List.getElem?_eq_getElem hj]
  exact List.getElem_mem hj

theorem correlogramLoop_peaks (conf : List ℚ) (maxP : Nat) : ∀ (fuel : Nat) (acf : List ℚ), acf ≠ [] →
    pickable acf < fuel → ∃ seen, Peaks acf conf seen ∧ correlogramLoop conf maxP fuel acf =
      some ((seen.filter fun i => decide (4 < i + 1 ∧ i + 1 < maxP)).map (· + 1)) := by
  intro fuel
  induction fuel with
  | zero => intro acf _ h; omega
  | succ fuel ih =>
    intro acf hne hf
    obtain ⟨hlt, -⟩ := argmax_spec hne
    simp only [correlogramLoop]
    split
    · rename_i hc
      refine ⟨[], ⟨.nil, by simp, .nil, by simp, by simp, fun _ => ⟨argmax acf, hlt, by simp, ?_, ?_⟩⟩, rfl⟩
      · rintro ⟨h1, h2⟩
        rcases hc with hc | hc <;> linarith
      · intro k hk _
        exact getD_le_argmax hk
    · rename_i hc
      push Not at hc
      have hp := pickable_set hlt hc.2
      obtain ⟨seen, hP, he⟩ := ih (acf.set (argmax acf) 0) (by simpa using hne) (by omega)
      have hnot : argmax acf ∉ seen := by
        intro hm
        have := (hP.significant _ hm).1
        rw [getD_set_self hlt] at this
        norm_num at this
      have hneq : ∀ i ∈ seen, i ≠ argmax acf := fun i hi e => hnot (e ▸ hi)
      have hin : ∀ i ∈ seen, i < acf.length := fun i hi => by simpa using hP.inside i hi
      refine ⟨argmax acf :: seen, ⟨List.nodup_cons.2 ⟨hnot, hP.nodup⟩, ?_, ?_, ?_, ?_, ?_⟩, ?_⟩
      · intro i hi
        rcases List.mem_cons.1 hi with rfl | hi
        · exact hlt
        · exact hin i hi
      · refine List.pairwise_cons.2 ⟨fun j hj => getD_le_argmax (hin j hj), ?_⟩
        refine hP.order.imp_of_mem ?_
        intro a b ha hb h
        rwa [getD_set_ne (hneq a ha), getD_set_ne (hneq b hb)] at h
      · intro i hi
        rcases List.mem_cons.1 hi with rfl | hi
        · exact ⟨hc.2, hc.1⟩
        · have := hP.significant i hi
          unfold Significant at this ⊢
          rwa [getD_set_ne (hneq i hi)] at this
      · intro i hi j hj hjn
        rw [List.mem_cons, not_or] at hjn
        rcases List.mem_cons.1 hi with rfl | hi
        · exact getD_le_argmax hj
        · have := hP.rest i hi j (by simpa using hj) hjn.2
          rwa [getD_set_ne (hneq i hi), getD_set_ne hjn.1] at this
      · intro hex
        obtain ⟨j, hj, hjn, hmax⟩ := exists_max (f := fun k => acf.getD k 0) hex
        have hjn' := hjn
        rw [List.mem_cons, not_or] at hjn'
        obtain ⟨m, hm, hmn, hms, hmm⟩ := hP.stop ⟨j, by simpa using hj, hjn'.2⟩
        rw [List.length_set] at hm hmm
        by_cases hma : m = argmax acf
        · refine ⟨j, hj, hjn, ?_, hmax⟩
          have := hmm j hj hjn'.2
          rw [getD_set_ne hjn'.1, hma, getD_set_self hlt] at this
          intro hs
          have := hs.1
          linarith
        · refine ⟨m, hm, by rw [List.mem_cons, not_or]; exact ⟨hma, hmn⟩, ?_, ?_⟩
          · unfold Significant at hms ⊢
            rwa [getD_set_ne hma] at hms
          · intro k hk hkn
            rw [List.mem_cons, not_or] at hkn
            have := hmm k hk hkn.2
            rwa [getD_set_ne hkn.1, getD_set_ne hma] at this
      · rw [he]
        simp only [Option.map_some, List.filter_cons, minPeriod]
        by_cases hr : 4 < argmax acf + 1 ∧ argmax acf + 1 < maxP
        · simp [hr]
        · simp [hr]

/-- **C41** (candidates): the candidates of the spectrum detector are the lags above 4 and below a third of the length
(at most 5760) among the significant peaks of the autocorrelation, in descending order of autocorrelation. The peaks end
at the highest remaining lag that is not significant. There is an error only if no lag can be computed. -/
theorem C41_candidates (E : Env) (data : List ℚ) :
    (E.acf data (min (data.length / 3) 5760) = [] ∧ correlogramDetector E data = .error .valueError) ∨
    ∃ seen, Peaks ((E.acf data (min (data.length / 3) 5760)).map (·.1))
        ((E.acf data (min (data.length / 3) 5760)).map (·.2)) seen ∧
      correlogramDetector E data = .ok
        ((seen.filter fun i => decide (4 < i + 1 ∧ i + 1 < min (data.length / 3) 5760)).map (· + 1)) := by
  unfold correlogramDetector
  show _ ∨ ∃ seen, _ ∧ (if (E.acf data (min (data.length / 3) 5760)).length = 0 then _ else _) = _
  by_cases h0 : E.acf data (min (data.length / 3) 5760) = []
  · left
    refine ⟨h0, ?_⟩
    show (if (E.acf data (min (data.length / 3) 5760)).length = 0 then _ else _) = _
    rw [h0]
    rfl
  · right
    have hlen : (E.acf data (min (data.length / 3) 5760)).length ≠ 0 := by simpa using h0
    obtain ⟨seen, h1, h2⟩ := correlogramLoop_peaks ((E.acf data (min (data.length / 3) 5760)).map (·.2))
      (min (data.length / 3) 5760) ((E.acf data (min (data.length / 3) 5760)).length + 1)
      ((E.acf data (min (data.length / 3) 5760)).map (·.1)) (by simpa using h0) (by
        have := pickable_le ((E.acf data (min (data.length / 3) 5760)).map (·.1))
        rw [List.length_map] at this
        omega)
    refine ⟨seen, h1, ?_⟩
    rw [if_neg hlen]
    show Except.ok ((correlogramLoop _ _ _ _).getD []) = _
    rw [show maxPeriodOf data.length = min (data.length / 3) 5760 from rfl, h2]
    rfl

/-! ### The spectrum detector -/

theorem gcv_near (l : List ℚ) {p : Nat} (hp : 0 < p) (hl : 2 * p ≤ l.length) :
    (isClose (gcv l p).1 0 = true ↔ Near (looMse l p) 0) ∧
      (¬ Near (looMse l p) 0 → (gcv l p).1 = looMse l p) ∧ (Near (looMse l p) 0 → (gcv l p).1 = 0) := by
  rw [C40_error hp hl]
  by_cases h : isClose (looMse l p) 0 = true
  · have h0 : isClose 0 0 = true := by decide +kernel
    have hn := (isClose_iff _ _).1 h
    rw [if_pos h]
    exact ⟨⟨fun _ => hn, fun _ => h0⟩, fun hc => absurd hn hc, fun _ => rfl⟩
  · have hn : ¬ Near (looMse l p) 0 := fun hh => h ((isClose_iff _ _).2 hh)
    rw [if_neg h]
    exact ⟨isClose_iff _ _, fun _ => rfl, fun hc => absurd hc hn⟩

theorem looMse_nonneg (l : List ℚ) (p : Nat) : 0 ≤ looMse l p :=
  div_nonneg (Finset.sum_nonneg fun _ _ => sq_nonneg _) (Nat.cast_nonneg _)

theorem fitSeasons_spec {E : Env} (hE : E.WF) {data : List ℚ} (h12 : 12 ≤ data.length) {o : Option (List ℚ)}
    (h : fitSeasons E data = .ok o) :
    ∃ smooth t : List ℚ, Despiked E.sqrt data smooth ∧ E.fitTrend smooth none = .ok t ∧ t.length = data.length ∧
      Repeats E.f32 E.acf (List.zipWith (· - ·) smooth t) ((o.map List.length).getD 0) := by
  unfold fitSeasons at h
  obtain ⟨t, ht, h⟩ := ebind_ok.1 h
  have hl := hE.trend_len _ _ _ ht
  rw [length_smoothSpikes] at hl
  refine ⟨smoothSpikes E data, t, smoothSpikes_spec hE data, ht, hl, ?_⟩
  dsimp only at h
  have hlr : (List.zipWith (· - ·) (smoothSpikes E data) t).length = data.length := by
    rw [List.length_zipWith, length_smoothSpikes, hl, min_self]
  set rest := List.zipWith (· - ·) (smoothSpikes E data) t
  split at h
  · rename_i hv
    have e := epure_ok.1 h
    subst e
    exact .inl ⟨(isClose_iff _ _).1 hv, rfl⟩
  · rename_i hv
    have hv' : ¬ Near (variance rest) 0 := fun hh => hv ((isClose_iff _ _).2 hh)
    refine .inr ⟨hv', ?_⟩
    obtain ⟨ps, hps, h⟩ := ebind_ok.1 h
    rcases C41_candidates E rest with ⟨h0, -⟩ | ⟨seen, hP, he⟩
    · exfalso
      have := hE.acf_len rest (min (rest.length / 3) 5760)
      rw [h0, hlr] at this
      simp at this
      omega
    · rw [he] at hps
      simp only [Except.ok.injEq] at hps
      have hmem : ∀ c, c ∈ ps ↔ ∃ i ∈ seen, 4 < i + 1 ∧ i + 1 < lagLimit rest.length ∧ i + 1 = c := by
        intro c
        rw [← hps]
        simp only [List.mem_map, List.mem_filter, decide_eq_true_eq, lagLimit]
        constructor
        · rintro ⟨i, ⟨h1, h2⟩, h3⟩
          exact ⟨i, h1, h2.1, h2.2, h3⟩
        · rintro ⟨i, h1, h2, h3, h4⟩
          exact ⟨i, ⟨h1, h2, h3⟩, h4⟩
      have hsmall : ∀ c ∈ ps, 0 < c ∧ 2 * c ≤ (rest.map E.f32).length := by
        intro c hc
        obtain ⟨i, -, h1, h2, rfl⟩ := (hmem c).1 hc
        have : i + 1 < rest.length / 3 := lt_of_lt_of_le h2 (min_le_left _ _)
        rw [List.length_map]
        omega
      refine ⟨seen, hP, ?_⟩
      split at h
      · rename_i hnil
        have e := epure_ok.1 h
        subst e
        refine .inl ⟨fun i hi hc => ?_, rfl⟩
        have : i + 1 ∈ ps := (hmem _).2 ⟨i, hi, hc.1, hc.2, rfl⟩
        rw [List.length_eq_zero_iff.1 hnil] at this
        cases this
      · rename_i hnil
        right
        split at h
        · rename_i hm
          exact absurd (congrArg List.length (C40_max_gcv.1.1 hm)) hnil
        · rename_i mse seasons hm
          obtain ⟨c, hc, hr, hmin⟩ := C40_max_gcv.2 _ hm
          obtain ⟨i, hi, h4, hlim, rfl⟩ := (hmem c).1 hc
          obtain ⟨hc0, hc2⟩ := hsmall _ hc
          obtain ⟨n1, n2, n3⟩ := gcv_near (rest.map E.f32) hc0 hc2
          have hmse : mse = (gcv (rest.map E.f32) (i + 1)).1 := congrArg Prod.fst hr
          have hse : seasons.length = i + 1 := by
            rw [show seasons = (gcv (rest.map E.f32) (i + 1)).2 from congrArg Prod.snd hr, length_gcv]
          have htest : (isClose mse 0 = true ∨ 20 / 100 ≤ 1 - mse / npVar rest) ↔
              (Near (looMse (rest.map E.f32) (i + 1)) 0 ∨
                20 / 100 ≤ 1 - looMse (rest.map E.f32) (i + 1) / variance rest) := by
            rw [hmse, n1]
            by_cases hn : Near (looMse (rest.map E.f32) (i + 1)) 0
            · simp [hn]
            · rw [n2 hn]
              rfl
          refine ⟨i, hi, h4, hlim, ?_, ?_⟩
          · intro j hj hj4 hjl
            by_cases hn : Near (looMse (rest.map E.f32) (i + 1)) 0
            · exact .inl hn
            · right
              have hjm : j + 1 ∈ ps := (hmem _).2 ⟨j, hj, hj4, hjl, rfl⟩
              obtain ⟨hj0, hj2⟩ := hsmall _ hjm
              obtain ⟨-, k2, k3⟩ := gcv_near (rest.map E.f32) hj0 hj2
              have hle := hmin _ hjm
              rw [n2 hn] at hle
              by_cases hn' : Near (looMse (rest.map E.f32) (j + 1)) 0
              · rw [k3 hn'] at hle
                exact le_trans hle (looMse_nonneg _ _)
              · rwa [k2 hn'] at hle
          · split at h
            · rename_i ht
              have e := epure_ok.1 h
              subst e
              exact .inl ⟨htest.1 ht, hse⟩
            · rename_i ht
              have e := epure_ok.1 h
              subst e
              exact .inr ⟨fun hh => ht (htest.2 hh), rfl⟩

/-- the relation between a series and its trend -/
def TrendOf (E : Env) (l t : List ℚ) : Prop := E.fitTrend l none = .ok t

theorem calculatePeriod_base {E : Env} (hE : E.WF) {l : List ℚ} {p : Nat} (h : calculatePeriod E l = .ok p) :
    BasePeriod E.sqrt E.f32 (TrendOf E) E.acf l p := by
  unfold calculatePeriod at h
  split at h
  · rename_i h12
    cases h
    exact .inl ⟨h12, rfl⟩
  · rename_i h12
    push Not at h12
    obtain ⟨o, ho, h⟩ := ebind_ok.1 h
    obtain ⟨sm, t, h1, h2, h3, h4⟩ := fitSeasons_spec hE h12 ho
    refine .inr ⟨h12, sm, t, h1, h2, h3, ?_⟩
    cases o with
    | none =>
      have e := epure_ok.1 h
      subst e
      exact h4
    | some seasons =>
      obtain ⟨l1, l2⟩ := fitSeasons_length hE ho
      dsimp only at h
      rw [if_neg (by omega), if_neg] at h
      · have e := epure_ok.1 h
        subst e
        exact h4
      · rw [not_le]
        have hpos : (0 : ℚ) < seasons.length := by exact_mod_cast (by omega : 0 < seasons.length)
        have : (3 : ℚ) < (l.length : ℚ) / seasons.length := by
          rw [lt_div_iff₀ hpos]
          exact_mod_cast l2
        linarith

theorem everyNth_get_aux {step : Nat} (hs : 0 < step) (l : List ℚ) (off k : Nat) :
    ((((l.zipIdx off).filter fun x => x.2 % step == 0).map (·.1))[k]? : Option ℚ) =
      l[(off + step - 1) / step * step - off + k * step]? := by
  induction l generalizing off k with
  | nil => simp
  | cons a t ih =>
    rw [List.zipIdx_cons, List.filter_cons]
    simp only [beq_iff_eq]
    by_cases h0 : off % step = 0
    · rw [if_pos h0, List.map_cons]
      obtain ⟨c, rfl⟩ := Nat.dvd_of_mod_eq_zero h0
      have e1 : (step * c + step - 1) / step * step - step * c = 0 := by
        have : (step * c + step - 1) / step = c := by
          rw [show step * c + step - 1 = (step - 1) + step * c by omega, Nat.add_mul_div_left _ _ hs,
            Nat.div_eq_of_lt (by omega)]
          omega
        rw [this, Nat.mul_comm]
        omega
      rw [e1, Nat.zero_add]
      cases k with
      | zero => simp
      | succ k =>
        rw [List.getElem?_cons_succ, ih]
        have e2 : (step * c + 1 + step - 1) / step * step - (step * c + 1) + k * step = (k + 1) * step - 1 := by
          have : (step * c + 1 + step - 1) / step = c + 1 := by
            rw [show step * c + 1 + step - 1 = step + step * c by omega, Nat.add_mul_div_left _ _ hs,
              Nat.div_self hs]
            omega
          rw [this, Nat.add_mul, Nat.add_mul, Nat.mul_comm c step]
          omega
        rw [e2]
        have : (k + 1) * step = (k + 1) * step - 1 + 1 := by
          have : 0 < (k + 1) * step := by positivity
          omega
        conv_rhs => rw [this, List.getElem?_cons_succ]
    · rw [if_neg h0, ih]
      have hm := Nat.div_add_mod off step
      have hlt := Nat.mod_lt off hs
      set c := off / step
      set r := off % step
      have e1 : (off + 1 + step - 1) / step = c + 1 := by
        rw [show off + 1 + step - 1 = (r + step) + step * c by omega, Nat.add_mul_div_left _ _ hs,
          Nat.add_div_right _ hs, Nat.div_eq_of_lt hlt]
        omega
      have e2 : (off + step - 1) / step = c + 1 := by
        rw [show off + step - 1 = (r - 1 + step) + step * c by omega, Nat.add_mul_div_left _ _ hs,
          Nat.add_div_right _ hs, Nat.div_eq_of_lt (by omega)]
        omega
      rw [e1, e2, Nat.add_mul, Nat.mul_comm c step]
      have : step * c + 1 * step - off + k * step = step * c + 1 * step - (off + 1) + k * step + 1 := by omega
      rw [this, List.getElem?_cons_succ]

theorem everyNth_spec {step : Nat} (hs : 0 < step) (l : List ℚ) : EveryNth step l (everyNth step l) := by
  intro k
  have := everyNth_get_aux hs l 0 k
  rw [Nat.zero_add, Nat.div_eq_of_lt (by omega)] at this
  simpa [everyNth] using this

theorem verifyLoop_composed {E : Env} (hE : E.WF) : ∀ (fuel : Nat) (series : List ℚ) (per vp r : Nat), 0 < vp →
    verifyLoop E fuel series per vp = .ok (some r) →
    ∃ q, Composed (BasePeriod E.sqrt E.f32 (TrendOf E) E.acf) (everyNth vp series) q ∧ r = per * q := by
  intro fuel
  induction fuel with
  | zero => intro series per vp r _ h; cases h
  | succ fuel ih =>
    intro series per vp r hvp h
    rw [verifyLoop, if_neg (by omega)] at h
    obtain ⟨vp', hc, h⟩ := ebind_ok.1 h
    have hb := calculatePeriod_base hE hc
    rcases Nat.eq_zero_or_pos vp' with h0 | h0
    · subst h0
      refine ⟨1, .stop hb, ?_⟩
      cases fuel with
      | zero => cases h
      | succ fuel =>
        rw [verifyLoop, if_pos rfl] at h
        simp only [Except.ok.injEq, Option.some.injEq] at h
        rw [← h]
        simp
    · obtain ⟨q, hq, hr⟩ := ih _ _ _ _ h0 h
      refine ⟨vp' * q, .step hb h0 (everyNth_spec h0 _) hq, ?_⟩
      rw [hr, if_pos (by omega), Nat.mul_assoc]

/-- **C82** (spectrum period): the spectrum detector scales the series to [0,1], takes the significant lag with the
least leave-one-out error if it explains at least 20% of the variance, looks for a period in the series of every
so-many-th point, and so on; the result is the product of the periods found, 0 if there is none. -/
theorem C82_spectrum {E : Env} (hE : E.WF) {series : List ℚ} {r : Nat} (h : spectrumDetect E series = .ok r) :
    SpectrumPeriod (BasePeriod E.sqrt E.f32 (TrendOf E) E.acf) series r := by
  unfold spectrumDetect at h
  split at h
  · cases h
  · rename_i h12
    refine ⟨normalize series, normalize_spec (by rintro rfl; simp at h12), ?_⟩
    obtain ⟨p, hp, h⟩ := ebind_ok.1 h
    have hb := calculatePeriod_base hE hp
    split at h
    · rename_i h0
      subst h0
      exact .inl ⟨hb, (epure_ok.1 h).symm⟩
    · rename_i h0
      obtain ⟨o, ho, h⟩ := ebind_ok.1 h
      cases o with
      | none => exact absurd ho (C42_refinement_terminates hE (by omega) hp h0)
      | some q0 =>
        have e := epure_ok.1 h
        subst e
        obtain ⟨q, hq, hr⟩ := verifyLoop_composed hE _ _ _ _ _ (by omega) ho
        exact .inr ⟨p, _, q, by omega, hb, everyNth_spec (by omega) _, hq, hr⟩

/-! ### The reported period -/

/-- the first period tried is the longest -/
theorem guesses_le {g : Granularity} {interval first q : Nat} (h : (guesses g interval).head? = some first)
    (hq : q ∈ guesses g interval) : q ≤ first := by
  cases g <;> simp only [guesses, List.head?_cons, List.head?_nil, Option.some.injEq, reduceCtorEq] at h <;> subst h <;>
    simp only [guesses, List.mem_cons, List.not_mem_nil, or_false] at hq
  · omega
  · omega
  · omega
  · rcases hq with rfl | rfl
    · exact le_rfl
    · exact Nat.div_le_div_right (by omega)
  · rcases hq with rfl | rfl | rfl
    · exact le_rfl
    · exact Nat.div_le_div_right (by omega)
    · exact Nat.div_le_div_right (by omega)
  · rcases hq with rfl | rfl | rfl
    · exact le_rfl
    · exact Nat.div_le_div_right (by omega)
    · exact Nat.div_le_div_right (by omega)
  · omega

theorem calendarPeriod_pos {sqrt f32 : ℚ → ℚ} {values : List ℚ} {g : Granularity} {interval p : Nat}
    (h : CalendarPeriod sqrt f32 values g interval (some p)) : 4 ≤ p := by
  obtain ⟨ok, -, ⟨-, h⟩ | ⟨q, first, ⟨bs, as, e, ⟨h4, -⟩, -⟩, hh, ⟨-, -, h⟩ | ⟨-, h⟩⟩⟩ := h
  · cases h
  · cases h
    exact le_trans h4 (guesses_le hh (by rw [e]; simp))
  · cases h
    exact h4

theorem periodDetection_detected {E : Env} (hE : E.WF) {s : List ℚ} {g : Granularity} {i p src : Nat}
    (h : periodDetection E s g i false = .ok (p, src)) :
    DetectedPeriod E.sqrt E.f32 (TrendOf E) E.acf s g i p := by
  obtain ⟨r, hr, hs⟩ := C81_simple hE s g i
  unfold periodDetection at h
  obtain ⟨o, ho, h⟩ := ebind_ok.1 h
  rw [hs] at ho
  split at ho
  · cases ho
  · simp only [Except.ok.injEq] at ho
    subst ho
    cases r with
    | none =>
      right
      obtain ⟨q, hq, h⟩ := ebind_ok.1 h
      have e := epure_ok.1 h
      simp only [Prod.mk.injEq] at e
      rw [← e.1]
      exact ⟨hr, C82_spectrum hE hq⟩
    | some q =>
      left
      dsimp only at h
      rw [if_pos (by have := calendarPeriod_pos hr; omega)] at h
      have e := epure_ok.1 h
      simp only [Prod.mk.injEq] at e
      rw [← e.1]
      exact hr

theorem presentKey_none_of_absent {p : Params} {k : String} (h : AbsentOrNone p k) : presentKey p k = none := by
  unfold presentKey
  rcases h with h | h <;> rw [h]

/-- **C82** (reported period): without a requested period, the reported period is 0 if more than half of the positions
of the time grid are missing. Otherwise it is the calendar period, else that of the spectrum detector, of the series:
the values of the request if no position is missing, and by default the values with every gap filled by the last
observation. -/
theorem C82_reported_period {E : Env} (hE : E.WF) {W : Wild} {d : Detector} {hasTs hasValue : Bool}
    {rows : List (PyVal × PyVal)} {params : Params} {items : List Item} (hno : params "indices" = none)
    (hf : FiniteFill E (.frame hasTs hasValue rows) params) {m : DetectType} (hm : InMode d params m)
    (h : (predict E W d (.frame hasTs hasValue rows) params).outcome = .ok items) (hv : params "period" = none) :
    ∃ (idx : List Int) (vs : List ℚ) (g : Granularity) (step : Nat),
      Positions E params hasTs rows idx ∧ idx.length = rows.length ∧ vs.length = rows.length ∧
      (∀ (i : Nat) (r : PyVal × PyVal), rows[i]? = some r → ∃ q, vs[i]? = some q ∧ Reads E.parseFloat r.2 q) ∧
      ((params "granularity" = none ∧ g = .none) ∨ requested params g) ∧ requestedInterval params step ∧
      ∀ it ∈ items,
        (2 * (idx.length : Int) < idx.getLastD 0 + 1 ∧ it.period = 0) ∨
        (idx.getLastD 0 + 1 ≤ 2 * (idx.length : Int) ∧ ∃ s : List ℚ,
          ((idx.length : Int) = idx.getLastD 0 + 1 → s = vs) ∧
          ((idx.length : Int) ≠ idx.getLastD 0 + 1 → AbsentOrNone params "imputeMode" → AbsentOrNone params "fillUpMode" →
            ∃ n, Gapped (observations idx vs) n ∧ Completes (observations idx vs) n s ∧
              FilledPrevious (observations idx vs) n s) ∧
          DetectedPeriod E.sqrt E.f32 (TrendOf E) E.acf s g step it.period) := by
  obtain ⟨T, hT⟩ := item_period hE hno hf hm h
  obtain ⟨eT, eV, eR⟩ : hasTs = T.hasTs ∧ hasValue = T.hasValue ∧ rows = T.rows := by
    simpa using T.isFrame
  have hpos := parsed_positions hE T.parsed T.validated
  rw [← eT, ← eR] at hpos
  obtain ⟨-, h2, h3, hne⟩ := T.len hE
  rw [← eR] at h2 h3
  have hpi : paramPeriod T.after = none := by
    unfold paramPeriod
    rw [T.parsed.frame _ (by decide), hv]
    rfl
  obtain ⟨hgood, hidx, hvals⟩ := FillProc.init_good hne T.fillInit
  have hall := allCount_last hne T.fillInit
  refine ⟨T.idx, T.M.values, T.M.gran, T.M.interval, hpos, h3, h2, ?_, ?_, ?_, ?_⟩
  · intro i r hr
    have hc := T.validated.values
    unfold cellValues at hc
    rw [← eR] at hc
    split at hc
    · have hf := mapM_except_ok hc
      obtain ⟨hi, rfl⟩ := List.getElem?_eq_some_iff.1 hr
      have := (List.forall₂_iff_get.1 hf).2 i hi (by rw [List.length_map]; omega)
      simp only [List.get_eq_getElem, List.getElem_map] at this
      exact ⟨T.M.values[i]'(by omega), List.getElem?_eq_getElem _, cellFloat_reads this⟩
    · split at hc
      · rename_i h0
        have := (List.getElem?_eq_some_iff.1 hr).1
        omega
      · cases hc
  · rw [T.configured.gran]
    rcases T.parsed.gran with ⟨a, b⟩ | ⟨s, a, b⟩
    · exact .inl ⟨a, b⟩
    · right
      unfold requested
      rw [a, ofName_mem b]
  · rw [T.configured.interval]
    rcases T.parsed.interval with ⟨a, b⟩ | ⟨v, i, a, b, c, e⟩
    · left
      rw [b]
      exact ⟨a, rfl⟩
    · right
      rw [e]
      refine ⟨v, a, ?_⟩
      have : ((Option.some i).getD 1).toNat = i.toNat := rfl
      rw [this, Int.toNat_of_nonneg (by omega)]
      exact asInt_isInt b
  · intro it hit
    rw [hT it hit]
    rcases T.selected.per with h1 | ⟨-, ⟨hs, h1⟩ | ⟨hs, src, h1⟩⟩
    · rw [hpi] at h1; cases h1
    · exact .inl ⟨(sparse_iff hne T.fillInit).1 hs, h1⟩
    · right
      have hd : T.idx.getLastD 0 + 1 ≤ 2 * (T.idx.length : Int) := by
        by_contra hc
        exact absurd ((sparse_iff hne T.fillInit).2 (by omega)) (not_lt.2 hs)
      refine ⟨hd, ?_⟩
      unfold Model.detectPeriod at h1
      rw [if_neg fun hc => by rw [if_pos hc] at h1; cases h1] at h1
      dsimp only at h1
      have hil : T.idx.length = T.M.fill.indices.length := by rw [hidx, List.length_map]
      by_cases hn : T.M.fill.need = true
      · rw [if_pos hn] at h1
        obtain ⟨full, hfull, h1⟩ := ebind_ok.1 h1
        have hp := periodDetection_detected hE (lift_ok.1 h1)
        refine ⟨_, ?_, ?_, hp⟩
        · intro e
          have := (hgood.need.1 hn).1
          omega
        · intro _ ha hb
          have hmode : T.M.mode = .auto := by
            rw [T.configured.mode]
            have := T.parsed.fill
            rcases this with ⟨s, hk, -⟩ | ⟨-, -, e⟩ | ⟨s, -, hk, -⟩
            · rw [presentKey_none_of_absent ha] at hk; cases hk
            · simp only [Prod.mk.injEq] at e
              rw [e.1]; rfl
            · rw [presentKey_none_of_absent hb] at hk; cases hk
          rw [if_pos hmode] at hfull
          rcases filled_ok hfull with ⟨rfl, hnone⟩ | ⟨l, tags, rfl, hsome⟩
          · exfalso
            simp only [fillUpOnDemand, hn, if_true] at hnone
            cases hx : T.M.fill.fillLast <;> simp [hx, Except.map] at hnone
          · obtain ⟨n, hg, hl, hkeep, -⟩ := C25_imputation_keeps_observed (WF.splineLaws hE) hne T.fillInit hsome
            obtain ⟨n', hg', hprev, -⟩ := C26_imputation_values hne T.fillInit hsome
            obtain ⟨full, hfl, hfp⟩ := hprev (.inl rfl)
            have e : l = full := by
              have := congrArg (List.map (fun o : Option ℚ => o.getD 0)) hfl
              simpa using this
            subst e
            refine ⟨n, hg, ⟨by simpa using hl, fun a ha => ?_⟩, ?_⟩
            · have := hkeep a ha
              exact getElem?_map_some.1 this
            · rw [Gapped.unique hg hg']
              exact hfp
      · rw [if_neg hn] at h1
        obtain ⟨full, hfull, h1⟩ := ebind_ok.1 h1
        have e := epure_ok.1 hfull
        subst e
        have hp := periodDetection_detected hE (lift_ok.1 h1)
        refine ⟨_, fun _ => rfl, ?_, hp⟩
        intro hne' _ _
        exfalso
        refine hn (hgood.need.2 ⟨?_, ?_⟩)
        · have := hgood.missing
          omega
        · have := T.validated.hi
          rw [← eR] at this
          omega

/-- a daily table whose calendar period is reported, and a table without timestamps whose spectrum period is -/
example : (match (predict demoEnv demoWild latestDetector (.frame true true weekRows)
        (Params.ofList [("granularity", .str "daily")])).outcome,
      (predict acfEnv demoWild latestDetector (.frame true true weekRows) (Params.ofList [])).outcome with
    | .ok a, .ok b => some (a.map (·.period), b.map (·.period))
    | _, _ => none) = some ([7], [7]) := by decide +kernel

/-- the twelve-week period that was rejected is reported by a request -/
example : (match (predict flatEnv demoWild latestDetector (.frame true true
        (fourWeekly.zipIdx.map fun x => (.int (x.2 * 604800), .float (.fin x.1))))
        (Params.ofList [("granularity", .str "weekly")])).outcome with
    | .ok a => some (a.map (·.period))
    | _ => none) = some [12] := by decide +kernel

end Verif
