import Verif.Props.Answered
import Verif.Props.LibReal

/-!
# Answered requests in terms of third-party functions

The assumption of C117 on the numeric routines follows from one on the third-party functions that they are built from.
-/

namespace Verif

open Spec

namespace Spec

/-- The third-party functions return on the inputs that they document: `rstl.STL` on more than two periods, the filters of
`seasonal` on at least 12 points, splines through at least 4 points at ascending positions of the grid. The broad trend of
a series is finite, and the peaks that `periodogram_peaks` finds, if any, do not all have score 0. -/
structure LibTotal (L : Lib) : Prop where
  stl : ∀ l p, 2 ≤ p → 2 * p < l.length → ∃ r, L.stlCore l p = .ok r
  aglet : ∀ l w, 12 ≤ l.length → 0 < w → ∃ r, L.aglet l w = .ok r
  splineFilter : ∀ l k, 12 ≤ l.length → 0 < k → ∃ r, L.splineFilter l k = .ok r
  finite : ∀ l, L.broadFinite l = true
  peaks : ∀ l, 12 ≤ l.length → ∃ r, L.peaks l = .ok r ∧ ∀ ps, r = some ps → (ps.map (·.2)).sum ≠ 0
  trendNaN : ∀ l, 12 ≤ l.length → ∃ r, L.rest.fitTrendNaN l = .ok r
  spline : ∀ (i : List Nat) (v : List ℚ) n, i.Pairwise (· < ·) → i.length = v.length → 4 ≤ v.length → (∀ k ∈ i, k < n) →
    ∃ r, L.rest.spline i v n = .ok r

end Spec

theorem trendWindow_pos {n p : Nat} (h : 12 ≤ n) : 0 < trendWindow n p := by
  unfold trendWindow
  split <;> omega

theorem fitSpline_total {L : Lib} (hW : L.WF) (hL : LibTotal L) {l : List ℚ} (h : 12 ≤ l.length) (p : Nat) :
    ∃ r, fitTrendKind L l "spline" p = .ok r := by
  have hw : 0 < trendWindow l.length p := trendWindow_pos h
  obtain ⟨a, ha⟩ := hL.splineFilter l (l.length / (trendWindow l.length p * 2) + 1) h (Nat.succ_pos _)
  have hl := hW.spline_filter_len _ _ _ ha
  obtain ⟨r, hr⟩ := hL.aglet a (trendWindow l.length p) (by omega) hw
  refine ⟨r, ?_⟩
  unfold fitTrendKind
  simp only [show ("spline" = "median") = False by decide, show ("spline" = "mean") = False by decide,
    show ("spline" = "line") = False by decide, if_false, if_true]
  rw [if_neg (by omega), ha]
  exact hr

theorem guess_total {L : Lib} (hW : L.WF) (hL : LibTotal L) {l : List ℚ} (h : 12 ≤ l.length) :
    ∃ r, guessTrendedPeriod L l = .ok r := by
  have hm : ∃ b, fitTrendKind L l "median" (min (l.length / 3) 512) = .ok b ∧ b.length = l.length := by
    unfold fitTrendKind
    simp only [if_true]
    have hl : (medianFilter L.rest.f32 l (trendWindow l.length (min (l.length / 3) 512)) false).length = l.length := by
      rw [length_medianFilter]
    obtain ⟨b, hb⟩ := hL.aglet (medianFilter L.rest.f32 l (trendWindow l.length (min (l.length / 3) 512)) false)
      (trendWindow l.length (min (l.length / 3) 512)) (by omega) (trendWindow_pos h)
    exact ⟨b, hb, by rw [hW.aglet_len _ _ _ hb, hl]⟩
  obtain ⟨b, hb, hbl⟩ := hm
  obtain ⟨r, hr, hs⟩ := hL.peaks (List.zipWith (· - ·) l b) (by rw [List.length_zipWith]; omega)
  unfold guessTrendedPeriod
  simp only [hb]
  show ∃ x, (if !L.broadFinite b then _ else _ : Except PyErr Nat) = .ok x
  rw [hL.finite]
  simp only [Bool.not_true, Bool.false_eq_true, if_false, hr]
  cases r with
  | none => exact ⟨_, rfl⟩
  | some ps =>
    cases ps with
    | nil => exact absurd rfl (hs [] rfl)
    | cons a t =>
      refine ⟨roundHalfEven (((a :: t).map fun x => x.1 * x.2).sum / ((a :: t).map (·.2)).sum), ?_⟩
      show (weightedMean (a :: t)).map roundHalfEven = _
      unfold weightedMean
      rw [if_neg (hs _ rfl)]
      rfl

theorem stlPlain_total {L : Lib} (hL : LibTotal L) {l : List ℚ} {p : Nat} (log : Bool) (hp : 2 ≤ p) (h : 2 * p < l.length) :
    ∃ r, stlPlain L l p log = .ok r := by
  unfold stlPlain
  cases log with
  | false => exact hL.stl l p hp h
  | true =>
    simp only [if_true]
    unfold stlLog
    rw [if_neg (by omega)]
    have hl : ((logShift l).map L.log).length = l.length := by
      unfold logShift
      split <;> simp
    obtain ⟨r, hr⟩ := hL.stl ((logShift l).map L.log) p hp (by omega)
    simp only [hr]
    exact ⟨_, rfl⟩

/-- **C117** (in terms of third-party functions): the numeric routines return on the inputs that C117 asks for if the
third-party functions they are built from do. -/
theorem C117_library {L : Lib} (hW : L.WF) (hL : LibTotal L) : Total L.env where
  trend := by
    intro l p h
    show ∃ r, fitTrend L l (some "spline") p = .ok r
    unfold fitTrend
    cases p with
    | some p => exact fitSpline_total hW hL h p
    | none =>
      obtain ⟨g, hg⟩ := guess_total hW hL h
      simp only [hg]
      exact fitSpline_total hW hL h g
  trendNaN := hL.trendNaN
  stl := by
    intro adjust l p log hp h
    show ∃ r, (if adjust then stlAdjust L l p log else stlPlain L l p log) = .ok r
    cases adjust with
    | false => exact stlPlain_total hL log hp h
    | true =>
      simp only [if_true]
      unfold stlAdjust
      rw [if_neg (by omega)]
      obtain ⟨o, ho⟩ := stlPlain_total hL log hp h
      obtain ⟨a, ha⟩ := stlPlain_total (l := l ++ [npMedian (samePhase l p)]) hL log hp (by simp; omega)
      rw [ho]
      show ∃ r, (if l.length < p then _ else _ : Except PyErr Stl) = .ok r
      rw [if_neg (by omega), ha]
      show ∃ r, (if |o.remainder.getD (l.length - 1) 0| ≤ |a.remainder.getD (l.length - 1) 0| then _ else _ :
        Except PyErr Stl) = .ok r
      split <;> exact ⟨_, rfl⟩
  spline := hL.spline

/-- the demonstration library returns -/
theorem demoLib_total : LibTotal demoLib where
  stl := fun _ _ _ _ => ⟨_, rfl⟩
  aglet := fun _ _ _ _ => ⟨_, rfl⟩
  splineFilter := fun _ _ _ _ => ⟨_, rfl⟩
  finite := fun _ => rfl
  peaks := by
    refine fun _ _ => ⟨_, rfl, ?_⟩
    rintro ps ⟨⟩
    norm_num
  trendNaN := demoEnv_total.trendNaN
  spline := demoEnv_total.spline

/-- `C117_library` on a concrete library: a request is answered -/
example : ∃ items, (predict demoLib.env demoWild entireDetector (.frame true true lateRows) (Params.ofList
    [("granularity", .str "secondly"), ("period", .int 7)])).outcome = .ok items := by
  have hv : Validated demoLib.env true true lateRows .secondly none (demoSeries.map fun i : Int => .fin i) lateIdx := by
    obtain ⟨⟨h1, h2, h3, h4, h5, h6⟩, h7, h8⟩ := lateRows_validated
    exact ⟨⟨h1, h2, h3, h4, h5, h6⟩, h7, h8⟩
  refine C117_seasonal (Lib.env_WF demoLib_WF) (C117_library demoLib_WF demoLib_total) ?_ ?_
    (.inr ⟨"secondly", by simp [Params.ofList, Params.set], by decide⟩)
    (.inl ⟨by simp [Params.ofList, Params.set], rfl⟩) hv (.inl rfl) (by decide) (.inl ?_) (v := .int 7) ?_
    (.int 7) (by decide) (n := 15) (.inr ⟨?_, by decide⟩) (by decide) (.inl ?_)
  · rw [admissible_iff]
    simp [checks, Params.ofList, Params.set, Absent, AbsentOrNone, granularityNames]
    exact ⟨_, .int 7, by norm_num⟩
  all_goals simp [NoDetector, Params.ofList, Params.set, LeavesGaps, AbsentOrNone, Absent]

end Verif
