import Verif.Props.Lib
import Verif.Props.Detectors
import Mathlib.Analysis.SpecialFunctions.Pow.Real

/-!
# The numerical formulas over the real numbers, and the routines in use (C86-C88)
-/

namespace Verif
open Spec

/-! ### spectral residual -/

/-- logarithm of a magnitude, 0 for 0 -/
noncomputable def logMag (x : ℝ) : ℝ := if x ≠ 0 then Real.log x else 0

/-- `pow(x, 1. / k)` -/
noncomputable def rootR (x : ℝ) (k : Nat) : ℝ := x ^ (1 / (k : ℝ))

theorem log_posProd (l : List ℝ) (h : ∀ x ∈ l, 0 ≤ x) : Real.log (posProd l) = (l.map logMag).sum := by
  induction l with
  | nil => simp [posProd]
  | cons a t ih =>
    rw [show a :: t = [a] ++ t from rfl, posProd_append, Real.log_mul (posProd_pos _).ne' (posProd_pos _).ne',
      ih fun x hx => h x (List.mem_cons_of_mem _ hx), posProd_singleton]
    have ha := h a List.mem_cons_self
    simp only [List.map_append, List.sum_append, List.map_cons, List.map_nil, List.sum_cons, List.sum_nil, add_zero,
      logMag]
    congr 1
    split
    · rename_i h0
      rw [if_pos h0.ne']
    · rename_i h0
      have : a = 0 := le_antisymm (not_lt.1 h0) ha
      rw [if_neg (by simp [this])]
      simp

theorem length_trailing {α : Type} (l : List α) {i : Nat} (hi : i < l.length) :
    (trailing 3 l i).length = min 3 (i + 1) := by
  simp [trailing]; omega

theorem mem_trailing {α : Type} {l : List α} {i : Nat} {x : α} (h : x ∈ trailing 3 l i) : x ∈ l :=
  List.mem_of_mem_take (List.mem_of_mem_drop h)

/-- **C86** (logarithmic form): in real arithmetic the amplitude is the exponential of the mean of the logarithms of the
last three magnitudes (fewer at the start), where the logarithm of 0 counts as 0. -/
theorem C86_log_form {mag : List ℝ} (h : ∀ x ∈ mag, 0 ≤ x) {i : Nat} (hi : i < mag.length) :
    (srAmplitude rootR mag)[i]? = some (Real.exp
      (((trailing 3 mag i).map logMag).sum / (trailing 3 mag i).length)) := by
  rw [C86_amplitude rootR mag hi, length_trailing mag hi, rootR, Real.rpow_def_of_pos (posProd_pos _),
    log_posProd _ fun x hx => h x (mem_trailing hx)]
  congr 2
  ring

/-- **C86** (the formula in the comment): dividing a frequency with real part `re` and imaginary part `im` by the amplitude
gives what the formula `re * exp(log mag - mean of logs) / mag` gives that the code quotes in a comment. -/
theorem C86_comment {mag : List ℝ} (h : ∀ x ∈ mag, 0 ≤ x) {i : Nat} {re im m a : ℝ} (hm : mag[i]? = some m)
    (hre : m = Real.sqrt (re ^ 2 + im ^ 2)) (ha : (srAmplitude rootR mag)[i]? = some a) :
    (if a ≠ 0 then re / a else 0) =
      if m ≠ 0 then
        re * Real.exp (logMag m - ((trailing 3 mag i).map logMag).sum / (trailing 3 mag i).length) / m
      else 0 := by
  obtain ⟨hi, -⟩ := List.getElem?_eq_some_iff.1 hm
  rw [C86_log_form h hi] at ha
  have ha := Option.some.inj ha
  have hpos : 0 < a := ha ▸ Real.exp_pos _
  rw [if_pos hpos.ne']
  have hm0 := h m (List.mem_of_getElem? hm)
  split
  · rename_i hne
    have hmp : 0 < m := lt_of_le_of_ne hm0 (Ne.symm hne)
    rw [Real.exp_sub, ha, logMag, if_pos hne, Real.exp_log hmp]
    field_simp
  · rename_i h0
    have h0 : m = 0 := by simpa using h0
    rw [h0] at hre
    have : re ^ 2 + im ^ 2 = 0 := by
      have := (Real.sqrt_eq_zero (by positivity)).1 hre.symm
      exact this
    have : re = 0 := by nlinarith [sq_nonneg re, sq_nonneg im]
    rw [this, zero_div]

section Scale

theorem posProd_all {l : List ℝ} (h : ∀ x ∈ l, 0 < x) : posProd l = l.prod := by
  unfold posProd
  rw [List.filter_eq_self.2 fun x hx => decide_eq_true (h x hx)]

theorem prod_scale (c : ℝ) (l : List ℝ) : (l.map fun x => c * x).prod = c ^ l.length * l.prod := by
  induction l with
  | nil => simp
  | cons a t ih => rw [List.map_cons, List.prod_cons, ih, List.length_cons, List.prod_cons, pow_succ]; ring

theorem srAmplitude_scale {c : ℝ} (hc : 0 < c) {mag : List ℝ} (h : ∀ x ∈ mag, 0 < x) :
    srAmplitude rootR (mag.map fun x => c * x) = (srAmplitude rootR mag).map fun x => c * x := by
  have hlen : ∀ m : List ℝ, (srAmplitude rootR m).length = m.length := fun m => length_srAmpLoop ..
  refine List.ext_getElem? fun i => ?_
  rcases Nat.lt_or_ge i mag.length with hi | hi
  · rw [C86_amplitude _ _ (by simpa using hi), List.getElem?_map, C86_amplitude _ _ hi, Option.map_some]
    have e : trailing 3 (mag.map fun x => c * x) i = (trailing 3 mag i).map fun x => c * x := by
      unfold trailing
      rw [← List.map_take, ← List.map_drop]
    have h' : ∀ x ∈ trailing 3 mag i, 0 < x := fun x hx => h x (mem_trailing hx)
    rw [e, posProd_all, posProd_all h', prod_scale, length_trailing mag hi]
    · congr 1
      unfold rootR
      have hk : ((min 3 (i + 1) : ℕ) : ℝ) ≠ 0 := by
        have : 0 < min 3 (i + 1) := by omega
        exact_mod_cast this.ne'
      rw [Real.mul_rpow (by positivity) (by rw [← posProd_all h']; exact (posProd_pos _).le), ← Real.rpow_natCast,
        ← Real.rpow_mul hc.le, mul_one_div_cancel hk, Real.rpow_one]
    · intro x hx
      obtain ⟨y, hy, rfl⟩ := List.mem_map.1 hx
      exact mul_pos hc (h' y hy)
  · rw [List.getElem?_eq_none (by rw [hlen]; simpa using hi), List.getElem?_eq_none (by simpa [hlen] using hi)]

/-- **C86** (scale): if no frequency of the series vanishes, the spectral residual does not change when the series is
multiplied by a positive constant. -/
theorem C86_scale {c : ℝ} (hc : 0 < c) (fft : List ℝ → List (ℝ × ℝ)) (ifft : List (ℝ × ℝ) → List (ℝ × ℝ))
    {values : List ℝ} (hlin : fft (values.map fun x => c * x) = (fft values).map fun z => (c * z.1, c * z.2))
    (hne : ∀ z ∈ fft values, z ≠ (0, 0)) :
    srCore fft ifft Real.sqrt rootR (values.map fun x => c * x) = srCore fft ifft Real.sqrt rootR values := by
  unfold srCore
  dsimp only
  rw [hlin, List.map_map]
  have e : ((fun z : ℝ × ℝ => Real.sqrt (z.1 ^ 2 + z.2 ^ 2)) ∘ fun z => (c * z.1, c * z.2)) =
      (fun x => c * x) ∘ fun z : ℝ × ℝ => Real.sqrt (z.1 ^ 2 + z.2 ^ 2) := by
    funext z
    simp only [Function.comp]
    rw [show (c * z.1) ^ 2 + (c * z.2) ^ 2 = c ^ 2 * (z.1 ^ 2 + z.2 ^ 2) by ring, Real.sqrt_mul (by positivity),
      Real.sqrt_sq hc.le]
  rw [e, ← List.map_map, srAmplitude_scale hc, List.zipWith_map]
  · congr 3
    funext z a
    by_cases ha : a = 0
    · simp [ha]
    · rw [if_pos (mul_ne_zero hc.ne' ha), if_pos ha, mul_div_mul_left _ _ hc.ne', mul_div_mul_left _ _ hc.ne']
  · intro x hx
    obtain ⟨z, hz, rfl⟩ := List.mem_map.1 hx
    apply Real.sqrt_pos.2
    have := hne z hz
    by_contra hcon
    apply this
    have h1 : z.1 = 0 := by nlinarith [sq_nonneg z.1, sq_nonneg z.2]
    have h2 : z.2 = 0 := by nlinarith [sq_nonneg z.1, sq_nonneg z.2]
    exact Prod.ext h1 h2

/-- discrete Fourier transform of two values, and its inverse -/
noncomputable def dft2 : List ℝ → List (ℝ × ℝ)
  | [a, b] => [(a + b, 0), (a - b, 0)]
  | l => l.map fun x => (x, 0)

noncomputable def idft2 : List (ℝ × ℝ) → List (ℝ × ℝ)
  | [a, b] => [((a.1 + b.1) / 2, (a.2 + b.2) / 2), ((a.1 - b.1) / 2, (a.2 - b.2) / 2)]
  | l => l

/-- **C86** (scale, counterexample): if a frequency vanishes, here the mean, the result does depend on the unit: zeros
count as 1. -/
theorem C86_scale_zero :
    srCore dft2 idft2 Real.sqrt rootR [2, -2] ≠ srCore dft2 idft2 Real.sqrt rootR [1 / 2, -(1 / 2)] := by
  have key : ∀ a : ℝ, 0 < a → srCore dft2 idft2 Real.sqrt rootR [a, -a] =
      [2 * a / rootR (2 * a) 2 / 2, 2 * a / rootR (2 * a) 2 / 2] := by
    intro a ha
    have hr : 0 < rootR (2 * a) 2 := Real.rpow_pos_of_pos (by linarith) _
    have hq : 0 < 2 * a / rootR (2 * a) 2 / 2 := by positivity
    have e1 : dft2 [a, -a] = [(0, 0), (2 * a, 0)] := by simp [dft2]; ring
    have e2 : ([(0, 0), (2 * a, 0)] : List (ℝ × ℝ)).map (fun z => Real.sqrt (z.1 ^ 2 + z.2 ^ 2)) = [0, 2 * a] := by
      simp [Real.sqrt_sq (by linarith : 0 ≤ 2 * a)]
    have e3 : srAmplitude rootR [0, 2 * a] = [1, rootR (2 * a) 2] := by
      simp [srAmplitude, srAmpLoop, ha, rootR]
    unfold srCore
    dsimp only
    rw [e1, e2, e3]
    simp only [List.zipWith_cons_cons, List.zipWith_nil_left, idft2, if_pos hr.ne', if_pos one_ne_zero, zero_div, zero_add,
      zero_sub, List.map_cons, List.map_nil]
    rw [show (-(2 * a / rootR (2 * a) 2) / 2) ^ 2 = (2 * a / rootR (2 * a) 2 / 2) ^ 2 by ring]
    simp only [neg_zero, zero_div, ne_eq, OfNat.ofNat_ne_zero, not_false_eq_true, zero_pow, add_zero,
      Real.sqrt_sq hq.le]
  rw [key 2 (by norm_num), key (1 / 2) (by norm_num)]
  have h4 : rootR (2 * 2) 2 = 2 := by
    rw [rootR, show (2 * 2 : ℝ) = 2 ^ (2 : ℝ) by norm_num, ← Real.rpow_mul (by norm_num)]
    norm_num
  have h1 : rootR (2 * (1 / 2)) 2 = 1 := by
    rw [rootR, show (2 * (1 / 2) : ℝ) = 1 by norm_num, Real.one_rpow]
  rw [h4, h1]
  norm_num

/-- the hypotheses are met by a series whose two frequencies do not vanish -/
example : dft2 ([1, 3].map fun x => 5 * x) = (dft2 [1, 3]).map (fun z => (5 * z.1, 5 * z.2)) ∧
    ∀ z ∈ dft2 [1, 3], z ≠ (0, 0) := by
  constructor
  · simp [dft2]; norm_num
  · simp [dft2]; norm_num

end Scale

/-! ### critical values -/

theorem esd_den {m : Nat} (hm : 2 ≤ m) (t : ℝ) : 0 < ((m : ℝ) - 1 + t ^ 2) * ((m : ℝ) + 1) := by
  have : (2 : ℝ) ≤ m := by exact_mod_cast hm
  have := sq_nonneg t
  apply mul_pos <;> linarith

theorem esd_sq {m : Nat} (hm : 2 ≤ m) (t : ℝ) :
    esdFormula Real.sqrt t m ^ 2 = (m : ℝ) ^ 2 / (m + 1) * (t ^ 2 / ((m : ℝ) - 1 + t ^ 2)) := by
  have h := esd_den hm t
  have h2 : (2 : ℝ) ≤ m := by exact_mod_cast hm
  have h3 : (m : ℝ) - 1 + t ^ 2 ≠ 0 := by nlinarith [sq_nonneg t]
  unfold esdFormula
  rw [div_pow, Real.sq_sqrt h.le]
  field_simp

/-- **C87** (formula): the computed critical value for `m + 1` remaining points, `m ≥ 2`, lies strictly between the
bounds `± m / √(m + 1)`, has the sign of `t` and grows with `t`. -/
theorem C87_formula {m : Nat} (hm : 2 ≤ m) (t : ℝ) :
    |esdFormula Real.sqrt t m| < m / Real.sqrt (m + 1) ∧
      (0 < t → 0 < esdFormula Real.sqrt t m) ∧
      ∀ t', t < t' → esdFormula Real.sqrt t m < esdFormula Real.sqrt t' m := by
  have h2 : (2 : ℝ) ≤ m := by exact_mod_cast hm
  have hpos : ∀ t : ℝ, 0 < t → 0 < esdFormula Real.sqrt t m := by
    intro t ht
    have := Real.sqrt_pos.2 (esd_den hm t)
    unfold esdFormula
    have : (0 : ℝ) < m := by linarith
    positivity
  have hneg : ∀ t : ℝ, esdFormula Real.sqrt (-t) m = - esdFormula Real.sqrt t m := by
    intro t
    unfold esdFormula
    rw [neg_sq]
    ring
  have hz : esdFormula Real.sqrt 0 m = 0 := by simp [esdFormula]
  have hsq : ∀ s t : ℝ, 0 ≤ s → s < t → esdFormula Real.sqrt s m < esdFormula Real.sqrt t m := by
    intro s t hs hst
    have ht := hpos t (lt_of_le_of_lt hs hst)
    refine lt_of_pow_lt_pow_left₀ 2 ht.le ?_
    rw [esd_sq hm, esd_sq hm]
    apply mul_lt_mul_of_pos_left
    · rw [div_lt_div_iff₀ (by nlinarith [sq_nonneg s]) (by nlinarith [sq_nonneg t])]
      have : s ^ 2 < t ^ 2 := by nlinarith
      nlinarith
    · have : (0 : ℝ) < m := by linarith
      positivity
  refine ⟨?_, hpos t, fun t' h => ?_⟩
  · refine lt_of_pow_lt_pow_left₀ 2 (by positivity) ?_
    rw [sq_abs, esd_sq hm, div_pow, Real.sq_sqrt (by linarith)]
    have h0 : (0 : ℝ) < (m : ℝ) ^ 2 / (m + 1) := by
      have : (0 : ℝ) < m := by linarith
      positivity
    have : t ^ 2 / ((m : ℝ) - 1 + t ^ 2) < 1 := by
      rw [div_lt_one (by nlinarith [sq_nonneg t])]
      linarith
    nlinarith
  · rcases le_total 0 t with h0 | h0
    · exact hsq t t' h0 h
    · rcases le_or_gt t' 0 with h1 | h1
      · have := hsq (-t') (-t) (by linarith) (by linarith)
        rw [hneg, hneg] at this
        linarith
      · have h3 := hpos t' h1
        have : esdFormula Real.sqrt t m ≤ 0 := by
          rcases h0.eq_or_lt with rfl | h0
          · exact hz.le
          · have := hpos (-t) (by linarith)
            rw [hneg] at this
            linarith
        linarith

/-- **C87** (alpha): a smaller `alpha` demands more: the computed critical value falls as `alpha` grows, for every
quantile function `ppf` that increases on `(0, 1)`. -/
theorem C87_alpha {m : Nat} (hm : 2 ≤ m) {ppf : ℝ → ℝ} (hp : StrictMonoOn ppf (Set.Ioo 0 1)) {a b : ℝ} (ha : 0 < a)
    (hab : a < b) (hb : b < m + 1) :
    esdFormula Real.sqrt (ppf (esdP b m)) m < esdFormula Real.sqrt (ppf (esdP a m)) m := by
  have h0 : (0 : ℝ) < (m : ℝ) + 1 := by positivity
  refine (C87_formula hm _).2.2 _ (hp ?_ ?_ ?_)
  · constructor
    · show 0 < 1 - b / ((m : ℝ) + 1)
      rw [sub_pos, div_lt_one h0]
      exact hb
    · show 1 - b / ((m : ℝ) + 1) < 1
      have : 0 < b / ((m : ℝ) + 1) := div_pos (ha.trans hab) h0
      linarith
  · constructor
    · show 0 < 1 - a / ((m : ℝ) + 1)
      rw [sub_pos, div_lt_one h0]
      exact hab.trans hb
    · show 1 - a / ((m : ℝ) + 1) < 1
      have : 0 < a / ((m : ℝ) + 1) := div_pos ha h0
      linarith
  · show 1 - b / ((m : ℝ) + 1) < 1 - a / ((m : ℝ) + 1)
    have : a / ((m : ℝ) + 1) < b / ((m : ℝ) + 1) := div_lt_div_of_pos_right hab h0
    linarith

example : StrictMonoOn (fun x : ℝ => x) (Set.Ioo 0 1) := fun _ _ _ _ h => h

/-- **C87** (NaN and infinite `alpha`): such a value passes validation; the quantile function has no value there, and
the ESD detector then proposes no point at all. -/
theorem C87_nonfinite {L : Lib} (hL : L.WF) (ht : ∀ p df, (∀ q : ℚ, p ≠ .fin q) → L.tppf p df = .nan) {alpha : PyFloat}
    (ha : ∀ q, alpha ≠ .fin q) {data : List ℚ} (hd : data ≠ []) (ratio : ℚ) (dir : Direction) (last : Bool) :
    esdDetect L.env (sortedSeries L.env data) (maxOutliersOf data.length ratio)
        (verifiedMajority L.env ((sortedSeries L.env data).map (·.2))) alpha dir last = .ok [] := by
  obtain ⟨r, h, hp⟩ := C77_esd (Lib.env_WF hL) hd ratio alpha dir last
  rw [h]
  have no : ∀ (n k : Nat) (vs : List ℚ) (u : Bool), ¬ ∃ t, CriticalValue L.env.criticalTable L.env.esdValue alpha n k t ∧
      Outlying L.env.gaussC L.env.std vs u t k := by
    rintro n k vs u ⟨t, hc, v, med, mad, -, -, -, ho⟩
    have e := critical_computed ha _ _ hc
    have e : t = .nan := by
      rw [e]
      show esdValueOf L (k + 1) alpha n = .nan
      unfold esdValueOf
      cases alpha with
      | fin q => exact absurd rfl (ha q)
      | pinf => simp only [esdProb]; rw [ht _ _ (by simp)]
      | ninf => simp only [esdProb]; rw [ht _ _ (by simp)]
      | nan => simp only [esdProb]; rw [ht _ _ (by simp)]
    subst e
    rcases ho with ho | ho <;> simp [Extreme, PyFloat.lt] at ho
  rcases hp with ⟨-, -, rfl⟩ | ⟨-, ⟨rfl, -⟩ | ⟨k, -, -, -, hk, -⟩⟩
  · rfl
  · rfl
  · exact absurd hk (no _ _ _ _)

/-! ### a concrete collection of routines -/

/-- mean of the values in the phase of position `i` -/
def phaseMean (l : List ℚ) (p i : Nat) : ℚ :=
  npMean (((List.range l.length).filter fun q => q % p = i % p).map fun q => l.getD q 0)

/-- Routines that satisfy the laws and that the kernel can evaluate. -/
def demoLib : Lib where
  rest := demoEnv
  stlCore := fun l p => .ok ⟨List.replicate l.length (npMean l),
    (List.range l.length).map fun i => phaseMean l p i - npMean l,
    (List.range l.length).map fun i => l.getD i 0 - phaseMean l p i⟩
  stlShort := fun _ _ _ => .error .valueError
  exp := fun x => if x ≤ 0 then 1 else 1 + x
  log := fun x => x - 1
  aglet := fun l _ => .ok l
  meanFilter := fun l _ => .ok l
  lineFilter := fun l _ => .ok l
  splineFilter := fun l _ => .ok (List.replicate l.length (npMedian l))
  broadFinite := fun _ => true
  peaks := fun _ => .ok (some [(4, 1), (6, 3)])
  fft := fun l => l.map fun x => (x, 0)
  ifft := id
  root := fun x _ => x
  tppf := fun p df => match p with
    | .fin q => if 0 < q ∧ q < 1 ∧ 0 < df then .fin 3 else .nan
    | _ => .nan
  histRaises := fun _ => false

theorem demoLib_WF : demoLib.WF where
  toDatetime_len := demoEnv_WF.toDatetime_len
  gauss_pos := demoEnv_WF.gauss_pos
  sqrt_nonneg := demoEnv_WF.sqrt_nonneg
  sqrt_zero := demoEnv_WF.sqrt_zero
  f32_mono := demoEnv_WF.f32_mono
  argsort_perm := demoEnv_WF.argsort_perm
  argsort_sorted := demoEnv_WF.argsort_sorted
  argsortDesc_perm := demoEnv_WF.argsortDesc_perm
  argsortDesc_sorted := demoEnv_WF.argsortDesc_sorted
  trendNaN_len := demoEnv_WF.trendNaN_len
  acf_len := demoEnv_WF.acf_len
  spline_len := demoEnv_WF.spline_len
  spline_knot := demoEnv_WF.spline_knot
  stl_len := by rintro l p r ⟨⟩; simp
  stlShort_len := by rintro l p g r ⟨⟩
  aglet_len := by rintro l w r ⟨⟩; rfl
  spline_filter_len := by rintro l w r ⟨⟩; simp
  mean_filter_len := by rintro l w r ⟨⟩; rfl
  line_filter_len := by rintro l w r ⟨⟩; rfl
  fft_len := fun l => List.length_map ..
  ifft_len := fun l => rfl

theorem demoLib_additive (l : List ℚ) (p : Nat) (r : Stl) (h : demoLib.stlCore l p = .ok r) :
    Additive l r.trend r.seasonal r.remainder := by
  cases h
  refine ⟨by simp, by simp, by simp, fun i hi => ?_⟩
  have e : ∀ f : Nat → ℚ, ((List.range l.length).map f).getD i 0 = f i := fun f => by
    simp [List.getD_eq_getElem?_getD, hi]
  have e' : (List.replicate l.length (npMean l)).getD i 0 = npMean l := by
    simp [List.getD_eq_getElem?_getD, hi]
  show (List.replicate l.length (npMean l)).getD i 0 + _ + _ = _
  rw [e', e, e]
  ring

/-- a decomposition of period 3, plain, of the logarithms and with an adjusted trend; the last value of the second
series is off, and the decomposition of the series with one more point is taken -/
example : (demoLib.env.stl false [1, 2, 6, 1, 2, 6] 3 false).toOption.map (fun r => (r.trend, r.seasonal, r.remainder)) =
      some ([3, 3, 3, 3, 3, 3], [-2, -1, 3, -2, -1, 3], [0, 0, 0, 0, 0, 0]) ∧
    (demoLib.env.stl false [0, 1, 5, 0, 1, 6] 3 true).toOption.map (fun r => (r.trend, r.seasonal, r.remainder)) =
      some ([13 / 6, 13 / 6, 13 / 6, 13 / 6, 13 / 6, 13 / 6], [-13 / 6, -7 / 6, 10 / 3, -13 / 6, -7 / 6, 10 / 3],
        [0, 0, -1 / 2, 0, 0, 1 / 2]) ∧
    (demoLib.env.stl true [1, 2, 6, 1, 2, 9] 3 false).toOption.map (fun r => (r.trend, r.seasonal, r.remainder)) ≠ none := by
  decide +kernel

/-- the trend with a guessed period (the rounded weighted mean of the peaks at 4 and 6, 5.5 goes to 6) -/
example : (guessTrendedPeriod demoLib [1, 2, 6, 1, 2, 6, 1, 2, 6, 1, 2, 6]).toOption = some 6 ∧
    (demoLib.env.fitTrend [1, 2, 6, 1, 2, 6, 1, 2, 6, 1, 2, 6] none).toOption = some (List.replicate 12 2) ∧
    (demoLib.env.fitTrend [1, 2, 6, 1, 2, 6, 1, 2, 6, 1, 2, 6] (some 3)).toOption = some (List.replicate 12 2) := by
  decide +kernel

/-- the amplitudes of five magnitudes, one of them 0, before the roots are taken -/
example : srAmplitude (fun x _ => x) ([2, 0, 3, 5, 7] : List ℚ) = [2, 2, 6, 15, 105] := by decide +kernel

/-- half of the values lie in the fullest of twenty bins -/
example : demoLib.env.histMajority [0, 1, 2, 20, 40, 40, 39, 38, 40, 20] = some (1 / 2) ∧
    demoLib.env.histMajority [5, 5, 5] = some 1 ∧ demoLib.env.histMajority [] = none := by decide +kernel

/-- the critical value with the default `alpha` and another one, and none for a NaN -/
example : (getCritical demoLib.env (.fin (5 / 100)) 4 3).length = 3 ∧
    (getCritical demoLib.env (.fin (1 / 100)) 4 3) = [.fin (9 / 44), .fin (2 / 10), .nan] ∧
    (getCritical demoLib.env .nan 4 3) = [.nan, .nan, .nan] := by decide +kernel

/-- a NaN is a possible `alpha`, and the hypothesis on the quantile function is met -/
example : esdDetect demoLib.env (sortedSeries demoLib.env [1, 2, 3, 90, 2, 2]) (maxOutliersOf 6 (1 / 2))
    (verifiedMajority demoLib.env ((sortedSeries demoLib.env [1, 2, 3, 90, 2, 2]).map (·.2))) .nan .upper false = .ok [] :=
  C87_nonfinite demoLib_WF (fun p _ h => by cases p with
    | fin q => exact absurd rfl (h q)
    | _ => rfl) (by simp) (by simp) _ _ _

/-- a whole request with these routines -/
example : okFlags (predict demoLib.env demoWild entireDetector
      (.frame true true (demoRows [5, 5, 5, 5, 5, 5, 5, 50, 5, 5, 5, 6, 5, 5, 5, 5, 5, 5, 5, 5, 5, 7, 5, 5]))
      (Params.ofList [("granularity", .str "secondly"), ("period", .int 0), ("sensitivity", .int 60)])) =
    some ((List.range 24).map fun i => (decide (i = 7), decide (i = 7), false)) := by
  decide +kernel

end Verif
