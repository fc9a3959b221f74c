import Verif.Props.Degrees
import Verif.Props.MirrorLib

/-!
# Unit and zero point of the values: the library (C137)

The laws that `C137_degrees` and `C137_unit` assume, derived for the code's own functions from laws of the third-party functions.
-/

namespace Verif

open Spec

namespace Spec

/-- The filters follow a change of scale and zero point, rounding to `float` loses nothing by it, and the periodogram, the test for finite values, the test for a
range that a histogram can be made of and the tests for stationarity do not see it. -/
structure LibDegrees (L : Lib) (c : ℚ) : Prop where
  f32 : ∀ b x, L.rest.f32 (c * x + b) = c * L.rest.f32 x + b
  aglet : ∀ b l w, L.aglet (moved c b l) w = (L.aglet l w).map (moved c b)
  spline : ∀ b l k, L.splineFilter (moved c b l) k = (L.splineFilter l k).map (moved c b)
  finite : ∀ b l, L.broadFinite (moved c b l) = L.broadFinite l
  peaks : ∀ l, L.peaks (moved c 0 l) = L.peaks l
  range : ∀ b l, L.histRaises (moved c b l) = L.histRaises l
  stationary : ∀ b l, L.rest.stationary (moved c b l) = L.rest.stationary l

end Spec

variable {c : ℚ}

theorem isRank_moved (hc : 0 < c) (b : ℚ) {l : List ℚ} {k : Nat} {v : ℚ} (h : IsRank l k v) : IsRank (moved c b l) k (c * v + b) := by
  obtain ⟨s, h1, h2, h3⟩ := h
  refine ⟨moved c b s, h1.map _, List.pairwise_map.2 (h2.imp fun h => add_le_add_left (mul_le_mul_of_nonneg_left h hc.le) b), ?_⟩
  unfold moved
  rw [List.getElem?_map, h3]
  rfl

theorem isMedian_moved (hc : 0 < c) (b : ℚ) {l : List ℚ} {m : ℚ} (h : IsMedian l m) : IsMedian (moved c b l) (c * m + b) := by
  rcases h with ⟨h1, h⟩ | ⟨h1, x, y, hx, hy, rfl⟩
  · exact .inl ⟨by rwa [moved_length], by rw [moved_length]; exact isRank_moved hc b h⟩
  · exact .inr ⟨by rwa [moved_length], c * x + b, c * y + b, by rw [moved_length]; exact isRank_moved hc b hx,
      by rw [moved_length]; exact isRank_moved hc b hy, by ring⟩

theorem medianFilter_moved {f : ℚ → ℚ} (hc : 0 < c) (b : ℚ) (hf : ∀ x, f (c * x + b) = c * f x + b) (l : List ℚ) (w : Nat) :
    medianFilter f (moved c b l) w false = moved c b (medianFilter f l w false) := by
  have hv : (moved c b l).map f = moved c b (l.map f) := by
    unfold moved
    rw [List.map_map, List.map_map]
    exact List.map_congr_left fun x _ => hf x
  by_cases hl : w / 2 * 2 + 1 ≤ l.length
  · obtain ⟨w1, a1, e1, n1, -, g1⟩ := medianFilter_core (f32 := f) false hl
    obtain ⟨w2, a2, e2, n2, -, g2⟩ := medianFilter_core (f32 := f) (data := moved c b l) false (by rwa [moved_length])
    simp only [Bool.false_eq_true, if_false, or_false] at e1 e2 g1 g2
    rw [e1, e2]
    rw [moved_length] at n2
    have key : ∀ j, j < l.length → a2.getD j 0 = c * a1.getD j 0 + b := by
      intro j hj
      have h1 := g1 j
      have h2 := g2 j
      rw [moved_length] at h2
      have ha : around (w / 2) ((moved c b l).map f) j = moved c b (around (w / 2) (l.map f) j) := by
        rw [hv]
        unfold around moved
        rw [List.map_drop, List.map_take]
      rw [ha, hv] at h2
      split at h1
      · rename_i hk
        rw [if_pos hk] at h2
        exact h2.unique (isMedian_moved hc b h1)
      · rename_i hk
        rw [if_neg hk] at h2
        rw [h1, h2, moved_getD c b (by rwa [List.length_map])]
    refine List.ext_getElem (by rw [moved_length, n1, n2]) fun j h1 h2 => ?_
    have hj : j < a1.length := by rwa [moved_length] at h2
    have := key j (by omega)
    rw [← moved_getD c b hj] at this
    rwa [List.getD_eq_getElem?_getD, List.getD_eq_getElem?_getD, List.getElem?_eq_getElem h1, List.getElem?_eq_getElem h2] at this
  · have : ∀ d : List ℚ, d.length = l.length → medianFilter f d w false = d.map f := by
      intro d hd
      unfold medianFilter
      dsimp only
      rw [if_pos (by rw [hd]; omega)]
    rw [this _ (moved_length c b l), this _ rfl, hv]

theorem fitTrendKind_moved {L : Lib} (hc : 0 < c) (hM : LibDegrees L c) (b : ℚ) (l : List ℚ) {k : String} (hk : k = "median" ∨ k = "spline") (p : Nat) :
    fitTrendKind L (moved c b l) k p = (fitTrendKind L l k p).map (moved c b) := by
  unfold fitTrendKind
  dsimp only
  rw [moved_length]
  rcases hk with rfl | rfl
  · rw [if_pos rfl, if_pos rfl, medianFilter_moved hc b (hM.f32 b), hM.aglet]
  · simp only [show ("spline" = "median") = False from by simp, show ("spline" = "mean") = False from by simp,
      show ("spline" = "line") = False from by simp, if_false, if_true]
    split
    · rfl
    · rw [hM.spline]
      cases L.splineFilter l _ with
      | error e => rfl
      | ok x => exact hM.aglet b x _

theorem guess_moved {L : Lib} (hc : 0 < c) (hM : LibDegrees L c) (b : ℚ) (l : List ℚ) : guessTrendedPeriod L (moved c b l) = guessTrendedPeriod L l := by
  unfold guessTrendedPeriod
  dsimp only
  rw [moved_length, fitTrendKind_moved hc hM b l (.inl rfl)]
  cases fitTrendKind L l "median" (min (l.length / 3) 512) with
  | error e => rfl
  | ok t =>
    have hz : List.zipWith (· - ·) (moved c b l) (moved c b t) = moved c 0 (List.zipWith (· - ·) l t) := by
      unfold moved
      rw [List.zipWith_map, List.map_zipWith]
      congr 1
      funext x y
      ring
    simp only [Except.map, bind, Except.bind]
    rw [hM.finite, hz, hM.peaks]

theorem npMin_moved (hc : 0 < c) (b : ℚ) {l : List ℚ} (h : l ≠ []) : npMin (moved c b l) = c * npMin l + b := by
  have hs : scaled c l ≠ [] := by
    intro e
    exact h (List.map_eq_nil_iff.1 e)
  rw [moved_eq, npMin_raised hs, npMin_scaled hc]

theorem npMax_moved (hc : 0 < c) (b : ℚ) {l : List ℚ} (h : l ≠ []) : npMax (moved c b l) = c * npMax l + b := by
  have hs : scaled c l ≠ [] := by
    intro e
    exact h (List.map_eq_nil_iff.1 e)
  rw [moved_eq, npMax_raised hs, npMax_scaled hc]

theorem histBin_moved (hc : 0 < c) (b : ℚ) {l : List ℚ} {x : ℚ} (hx : x ∈ l) : histBin (moved c b l) (c * x + b) = histBin l x := by
  have hl : l ≠ [] := List.ne_nil_of_mem hx
  unfold histBin
  dsimp only
  rw [npMin_moved hc b hl, npMax_moved hc b hl]
  have hiff : c * npMin l + b = c * npMax l + b ↔ npMin l = npMax l :=
    ⟨fun h => mul_left_cancel₀ hc.ne' (by linarith), fun h => by rw [h]⟩
  by_cases h : npMin l = npMax l
  · rw [if_pos (hiff.2 h), if_pos (hiff.2 h), if_pos h, if_pos h]
    have h1 : npMin l ≤ x := npMin_le hx
    have h2 : x ≤ npMax l := le_npMax hx
    have : x = npMin l := by linarith
    rw [this, ← h]
    congr 3
    ring
  · rw [if_neg (fun e => h (hiff.1 e)), if_neg (fun e => h (hiff.1 e)), if_neg h, if_neg h]
    congr 3
    have : (c * x + b - (c * npMin l + b)) * 20 = c * ((x - npMin l) * 20) := by ring
    rw [this, show c * npMax l + b - (c * npMin l + b) = c * (npMax l - npMin l) by ring, mul_div_mul_left _ _ hc.ne']

theorem histCount_moved (hc : 0 < c) (b : ℚ) (l : List ℚ) (k : Nat) : histCount (moved c b l) k = histCount l k := by
  unfold histCount
  rw [show (moved c b l).filter (fun x => histBin (moved c b l) x == k) = (l.filter fun x => histBin (moved c b l) (c * x + b) == k).map fun x => c * x + b by
    conv_lhs => rw [moved.eq_def c b l, List.filter_map]
    rfl, List.length_map]
  congr 1
  exact List.filter_congr fun x hx => by rw [histBin_moved hc b hx]

/-- **C137** (the laws): if the functions of the libraries follow a change of scale and zero point, so does the trend that the code fits with them, and the
histogram does not see it. -/
theorem C137_library {L : Lib} (hc : 0 < c) (hM : LibDegrees L c) : Degrees L.env c where
  stationary := hM.stationary
  histogram := fun b l => by
    show histMajorityOf L (moved c b l) = histMajorityOf L l
    unfold histMajorityOf
    rw [moved_length, hM.range]
    congr 5
    exact List.map_congr_left fun k _ => histCount_moved hc b l k
  trend := fun b l p => by
    show fitTrend L (moved c b l) (some "spline") p = (fitTrend L l (some "spline") p).map (moved c b)
    unfold fitTrend
    cases p with
    | some p => exact fitTrendKind_moved hc hM b l (.inr rfl) p
    | none =>
      dsimp only
      rw [guess_moved hc hM]
      cases guessTrendedPeriod L l with
      | error e => rfl
      | ok p => exact fitTrendKind_moved hc hM b l (.inr rfl) p

theorem npMedian_moved (hc : 0 < c) (b : ℚ) {l : List ℚ} (h : l ≠ []) : npMedian (moved c b l) = c * npMedian l + b :=
  (isMedian_npMedian (by intro e; exact h (List.map_eq_nil_iff.1 e))).unique (isMedian_moved hc b (isMedian_npMedian h))

theorem mirrorLib_degrees (hc : 0 < c) : LibDegrees mirrorLib c where
  f32 := fun _ _ => rfl
  aglet := fun _ _ _ => rfl
  spline := fun b l k => by
    show Except.ok (List.replicate (moved c b l).length (npMedian (moved c b l))) = Except.map (moved c b) (.ok (List.replicate l.length (npMedian l)))
    rw [moved_length]
    by_cases h : l = []
    · subst h; rfl
    · rw [npMedian_moved hc b h]
      simp only [Except.map, moved, List.map_replicate]
  finite := fun _ _ => rfl
  peaks := fun _ => rfl
  range := fun _ _ => rfl
  stationary := fun _ _ => rfl

/-- `C137_library`: Celsius and Fahrenheit with the small library -/
example : Degrees mirrorLib.env (9 / 5) ∧ mirrorLib.env.fitTrend [0, 10, 35] (some 2) = .ok [10, 10, 10] ∧
    mirrorLib.env.fitTrend [32, 50, 95] (some 2) = .ok [50, 50, 50] ∧ mirrorLib.env.histMajority [0, 10, 35, 10] = some (1 / 2) ∧
    mirrorLib.env.histMajority [32, 50, 95, 50] = some (1 / 2) :=
  ⟨C137_library (by norm_num) (mirrorLib_degrees (by norm_num)), by decide +kernel, by decide +kernel, by decide +kernel, by decide +kernel⟩

end Verif
