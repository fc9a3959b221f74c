import Verif.Props.Mirror
import Verif.Props.LibReal

/-!
# The library behind a series turned upside down (C133)

The symmetry laws that `C133_mirror` assumes, from symmetry laws of the functions the code calls.
-/

namespace Verif

open Spec

namespace Spec

/-- Changing every sign of the input changes every sign of the output of the filters, the Fourier transforms and the rounding to `float`, takes a
quantile from the other end, and is not seen by the periodogram, by the test for finite values and by the tests for stationarity. -/
structure LibMirror (L : Lib) : Prop where
  f32 : ∀ x, L.rest.f32 (-x) = -L.rest.f32 x
  aglet : ∀ l w, L.aglet (turned l) w = (L.aglet l w).map turned
  spline : ∀ l k, L.splineFilter (turned l) k = (L.splineFilter l k).map turned
  finite : ∀ l, L.broadFinite (turned l) = L.broadFinite l
  peaks : ∀ l, L.peaks (turned l) = L.peaks l
  fft : ∀ l, L.fft (turned l) = (L.fft l).map fun z => (-z.1, -z.2)
  ifft : ∀ l : List (ℚ × ℚ), L.ifft (l.map fun z => (-z.1, -z.2)) = (L.ifft l).map fun z => (-z.1, -z.2)
  quantile : ∀ l q, L.rest.quantile (turned l) q = -L.rest.quantile l (1 - q)
  stationary : ∀ l, L.rest.stationary (turned l) = L.rest.stationary l

end Spec

theorem medianFilter_turned {f : ℚ → ℚ} (hf : ∀ x, f (-x) = -f x) (l : List ℚ) (w : Nat) :
    medianFilter f (turned l) w false = turned (medianFilter f l w false) := by
  have hv : (turned l).map f = turned (l.map f) := by
    unfold turned
    rw [List.map_map, List.map_map]
    exact List.map_congr_left fun x _ => hf x
  by_cases hl : w / 2 * 2 + 1 ≤ l.length
  · obtain ⟨w1, a1, e1, n1, -, g1⟩ := medianFilter_core (f32 := f) false hl
    obtain ⟨w2, a2, e2, n2, -, g2⟩ := medianFilter_core (f32 := f) (data := turned l) false (by rwa [turned_length])
    simp only [Bool.false_eq_true, if_false, or_false] at e1 e2 g1 g2
    rw [e1, e2]
    rw [turned_length] at n2
    have key : ∀ j, a2.getD j 0 = -a1.getD j 0 := by
      intro j
      have h1 := g1 j
      have h2 := g2 j
      rw [turned_length] at h2
      have ha : around (w / 2) ((turned l).map f) j = turned (around (w / 2) (l.map f) j) := by
        rw [hv]
        unfold around turned
        rw [List.map_drop, List.map_take]
      rw [ha, hv] at h2
      split at h1
      · rename_i hc
        rw [if_pos hc] at h2
        exact h2.unique (isMedian_turned h1)
      · rename_i hc
        rw [if_neg hc] at h2
        rw [h1, h2, turned_getD]
    refine List.ext_getElem (by rw [turned_length, n1, n2]) fun j h1 h2 => ?_
    have := key j
    rw [← turned_getD] at this
    rwa [List.getD_eq_getElem?_getD, List.getD_eq_getElem?_getD, List.getElem?_eq_getElem h1, List.getElem?_eq_getElem h2] at this
  · have : ∀ d : List ℚ, d.length = l.length → medianFilter f d w false = d.map f := by
      intro d hd
      unfold medianFilter
      dsimp only
      rw [if_pos (by rw [hd]; omega)]
    rw [this _ (turned_length l), this _ rfl, hv]

theorem fitTrendKind_turned {L : Lib} (hM : LibMirror L) (l : List ℚ) {k : String} (hk : k = "median" ∨ k = "spline") (p : Nat) :
    fitTrendKind L (turned l) k p = (fitTrendKind L l k p).map turned := by
  unfold fitTrendKind
  dsimp only
  rw [turned_length]
  rcases hk with rfl | rfl
  · rw [if_pos rfl, if_pos rfl, medianFilter_turned hM.f32, hM.aglet]
  · simp only [show ("spline" = "median") = False from by simp, show ("spline" = "mean") = False from by simp,
      show ("spline" = "line") = False from by simp, if_false, if_true]
    split
    · rfl
    · rw [hM.spline]
      cases L.splineFilter l _ with
      | error e => rfl
      | ok x => exact hM.aglet x _

theorem guess_turned {L : Lib} (hM : LibMirror L) (l : List ℚ) : guessTrendedPeriod L (turned l) = guessTrendedPeriod L l := by
  unfold guessTrendedPeriod
  dsimp only
  rw [turned_length, fitTrendKind_turned hM l (.inl rfl)]
  cases fitTrendKind L l "median" (min (l.length / 3) 512) with
  | error e => rfl
  | ok b =>
    have hz : List.zipWith (· - ·) (turned l) (turned b) = turned (List.zipWith (· - ·) l b) := by
      unfold turned
      rw [List.zipWith_map, List.map_zipWith]
      congr 1
      funext x y
      ring
    simp only [Except.map, bind, Except.bind]
    rw [hM.finite, hz, hM.peaks]

/-- **C133** (the laws): if the functions of the libraries are symmetric, so are the functions the code builds from them: the fitted trend and the
spectral residual. -/
theorem C133_library {L : Lib} (hM : LibMirror L) : Mirror L.env where
  transform := fun l => by
    have hsq : ∀ t : List (ℚ × ℚ), (t.map fun z => (-z.1, -z.2)).map (fun z => L.rest.sqrt (z.1 ^ 2 + z.2 ^ 2)) =
        t.map fun z => L.rest.sqrt (z.1 ^ 2 + z.2 ^ 2) := by
      intro t
      rw [List.map_map]
      refine List.map_congr_left fun z _ => ?_
      simp only [Function.comp, neg_sq]
    show srTransform L (turned l) = srTransform L l
    unfold srTransform srCore
    dsimp only
    rw [hM.fft, hsq]
    generalize srAmplitude L.root _ = amp
    have hres : List.zipWith (fun (z : ℚ × ℚ) a => if a ≠ 0 then (z.1 / a, z.2 / a) else (0, 0)) ((L.fft l).map fun z => (-z.1, -z.2)) amp =
        (List.zipWith (fun (z : ℚ × ℚ) a => if a ≠ 0 then (z.1 / a, z.2 / a) else (0, 0)) (L.fft l) amp).map fun z => (-z.1, -z.2) := by
      rw [List.zipWith_map_left, List.map_zipWith]
      congr 1
      funext z a
      split
      · simp only [neg_div]
      · simp
    rw [hres, hM.ifft, hsq]
  quantile := hM.quantile
  stationary := hM.stationary
  trend := fun l p => by
    show fitTrend L (turned l) (some "spline") p = (fitTrend L l (some "spline") p).map turned
    unfold fitTrend
    cases p with
    | some p => exact fitTrendKind_turned hM l (.inr rfl) p
    | none =>
      dsimp only
      rw [guess_turned hM]
      cases guessTrendedPeriod L l with
      | error e => rfl
      | ok p => exact fitTrendKind_turned hM l (.inr rfl) p

/-- the small library, with a symmetric quantile, is symmetric -/
def mirrorLib : Lib := { demoLib with rest := mirrorEnv }

theorem mirrorLib_mirror : LibMirror mirrorLib where
  f32 := fun _ => rfl
  aglet := fun _ _ => rfl
  spline := fun l k => by
    show Except.ok (List.replicate (turned l).length (npMedian (turned l))) = Except.map turned (.ok (List.replicate l.length (npMedian l)))
    rw [turned_length, npMedian_turned]
    simp only [Except.map, turned, List.map_replicate]
  finite := fun _ => rfl
  peaks := fun _ => rfl
  fft := fun l => by
    show (turned l).map (fun x => (x, (0 : ℚ))) = (l.map fun x => (x, (0 : ℚ))).map fun z => (-z.1, -z.2)
    unfold turned
    rw [List.map_map, List.map_map]
    refine List.map_congr_left fun x _ => ?_
    simp
  ifft := fun _ => rfl
  quantile := mirrorEnv_mirror.quantile
  stationary := fun _ => rfl

/-- `C133_library`: the trend that is fitted to the small library is not constant in its input -/
example : Mirror mirrorLib.env ∧ mirrorLib.env.fitTrend [1, 2, 9] (some 2) = .ok [2, 2, 2] ∧
    mirrorLib.env.fitTrend [-1, -2, -9] (some 2) = .ok [-2, -2, -2] :=
  ⟨C133_library mirrorLib_mirror, by decide +kernel, by decide +kernel⟩

end Verif
