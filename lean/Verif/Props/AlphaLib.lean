import Verif.Props.Alpha
import Verif.Props.LibReal

/-!
# Raising alpha: the critical values (C138)

The law `NotStricter` of C138, derived for `Lib.env` from laws of the quantile function of the t distribution, of the square root and of rounding to single precision.
-/

namespace Verif

open Spec

namespace Spec

/-- Laws of the third-party functions behind the critical values for `a` and `a'`, at `m + 1` remaining points. -/
structure LibAlpha (L : Lib) (a a' : ℚ) : Prop where
  /-- the quantile is finite for at least one degree of freedom only, and for the greater alpha it is finite, positive and not greater -/
  quantile : ∀ (m : Nat) t, L.tppf (.fin (1 - L.rest.f32 a / ((m : ℚ) + 1))) (m - 1) = .fin t →
    2 ≤ m ∧ ∃ t', L.tppf (.fin (1 - L.rest.f32 a' / ((m : ℚ) + 1))) (m - 1) = .fin t' ∧ 0 < t' ∧ t' ≤ t
  sqrt_pos : ∀ x, 0 < x → 0 < L.rest.sqrt x
  sqrt_mono : ∀ x y, 0 ≤ x → x ≤ y → L.rest.sqrt x ≤ L.rest.sqrt y
  sqrt_scale : ∀ k x, 1 ≤ k → 0 ≤ x → L.rest.sqrt (k ^ 2 * x) ≤ k * L.rest.sqrt x
  f32_mono : ∀ x y, x ≤ y → L.rest.f32 x ≤ L.rest.f32 y

end Spec

theorem esdFormula_mono {sqrt : ℚ → ℚ} (hp : ∀ x, 0 < x → 0 < sqrt x) (hm : ∀ x y, 0 ≤ x → x ≤ y → sqrt x ≤ sqrt y)
    (hs : ∀ k x, 1 ≤ k → 0 ≤ x → sqrt (k ^ 2 * x) ≤ k * sqrt x) {m : Nat} (h2 : 2 ≤ m) {t t' : ℚ} (h0 : 0 < t') (h : t' ≤ t) :
    esdFormula sqrt t' m ≤ esdFormula sqrt t m := by
  have hm2 : (2 : ℚ) ≤ m := by exact_mod_cast h2
  have pos : ∀ s : ℚ, 0 < ((m : ℚ) - 1 + s ^ 2) * ((m : ℚ) + 1) := fun s => by
    have := sq_nonneg s
    exact mul_pos (by linarith) (by linarith)
  have ht : 0 < t := h0.trans_le h
  have hk : 1 ≤ t / t' := (one_le_div h0).2 h
  have key : sqrt (((m : ℚ) - 1 + t ^ 2) * ((m : ℚ) + 1)) ≤ t / t' * sqrt (((m : ℚ) - 1 + t' ^ 2) * ((m : ℚ) + 1)) := by
    refine (hm _ _ (pos t).le ?_).trans (hs (t / t') _ hk (pos t').le)
    rw [← mul_assoc]
    refine mul_le_mul_of_nonneg_right ?_ (by linarith)
    have e : (t / t') ^ 2 * ((m : ℚ) - 1 + t' ^ 2) = (t / t') ^ 2 * ((m : ℚ) - 1) + t ^ 2 := by
      field_simp
    rw [e]
    have : 1 ≤ (t / t') ^ 2 := one_le_pow₀ hk
    nlinarith
  unfold esdFormula
  rw [div_le_div_iff₀ (hp _ (pos t')) (hp _ (pos t))]
  have := mul_le_mul_of_nonneg_left key (by positivity : (0 : ℚ) ≤ t' * m)
  calc t' * m * sqrt (((m : ℚ) - 1 + t ^ 2) * ((m : ℚ) + 1))
      ≤ t' * m * (t / t' * sqrt (((m : ℚ) - 1 + t' ^ 2) * ((m : ℚ) + 1))) := this
    _ = t * m * sqrt (((m : ℚ) - 1 + t' ^ 2) * ((m : ℚ) + 1)) := by field_simp

/-- **C138** (critical values) For two values of `alpha` away from the default 0.05 the law `NotStricter` of the other theorems follows from laws of the
third-party functions. The law `sqrt_scale` ignores the rounding of the square root. -/
theorem C138_library {L : Lib} {a a' : ℚ} (hL : LibAlpha L a a') (ha : ¬ Near a (5 / 100)) (ha' : ¬ Near a' (5 / 100)) :
    NotStricter L.env (.fin a) (.fin a') := by
  rintro n k t (⟨⟨b, e, hb⟩, -⟩ | ⟨-, rfl⟩)
  · cases e
    exact absurd hb ha
  refine ⟨_, .inr ⟨fun h => ?_, rfl⟩, fun x hx => ?_⟩
  · obtain ⟨⟨b, e, hb⟩, -⟩ := h
    cases e
    exact ha' hb
  change (esdValueOf L (k + 1) (.fin a) n).lt (.fin x) = true at hx
  change (esdValueOf L (k + 1) (.fin a') n).lt (.fin x) = true
  unfold esdValueOf esdProb esdP at hx ⊢
  dsimp only at hx ⊢
  cases e : L.tppf (.fin (1 - L.rest.f32 a / (((n - (k + 1) : Nat) : ℚ) + 1))) (n - (k + 1) - 1) with
  | fin t =>
    obtain ⟨h2, t', e', h0, hle⟩ := hL.quantile _ t e
    rw [e] at hx
    rw [e']
    have hm2 : (2 : ℚ) ≤ (n - (k + 1) : Nat) := by exact_mod_cast h2
    have pos : ∀ s : ℚ, 0 < L.rest.sqrt ((((n - (k + 1) : Nat) : ℚ) - 1 + s ^ 2) * (((n - (k + 1) : Nat) : ℚ) + 1)) := fun s => by
      have := sq_nonneg s
      exact hL.sqrt_pos _ (mul_pos (by linarith) (by linarith))
    dsimp only at hx ⊢
    rw [if_neg (pos t).ne'] at hx
    rw [if_neg (pos t').ne']
    have hx : L.rest.f32 (esdFormula L.rest.sqrt t (n - (k + 1))) < x := by simpa [PyFloat.lt] using hx
    have := (hL.f32_mono _ _ (esdFormula_mono hL.sqrt_pos hL.sqrt_mono hL.sqrt_scale h2 h0 hle)).trans_lt hx
    simpa [PyFloat.lt] using this
  | pinf => rw [e] at hx; cases hx
  | ninf => rw [e] at hx; cases hx
  | nan => rw [e] at hx; cases hx

/-- `demoLib` with a square root of one for all positive numbers -/
def alphaLib : Lib := { demoLib with rest := { demoEnv with sqrt := fun x => if x ≤ 0 then 0 else 1 } }

theorem alphaLib_alpha : LibAlpha alphaLib (1 / 100) (2 / 100) where
  quantile := by
    intro m t h
    change (if 0 < 1 - (1 / 100 : ℚ) / ((m : ℚ) + 1) ∧ 1 - (1 / 100 : ℚ) / ((m : ℚ) + 1) < 1 ∧ 0 < m - 1 then PyFloat.fin 3 else .nan)
      = .fin t at h
    split at h
    · next hc =>
      cases h
      refine ⟨by omega, 3, ?_, by norm_num, le_rfl⟩
      change (if 0 < 1 - (2 / 100 : ℚ) / ((m : ℚ) + 1) ∧ 1 - (2 / 100 : ℚ) / ((m : ℚ) + 1) < 1 ∧ 0 < m - 1 then PyFloat.fin 3 else .nan)
        = .fin 3
      have hm : (0 : ℚ) ≤ m := Nat.cast_nonneg m
      have h1 : (2 / 100 : ℚ) / ((m : ℚ) + 1) < 1 := by rw [div_lt_one (by linarith)]; linarith
      have h2 : 0 < (2 / 100 : ℚ) / ((m : ℚ) + 1) := by positivity
      exact if_pos ⟨by linarith, by linarith, hc.2.2⟩
    · cases h
  sqrt_pos x hx := by
    change (0 : ℚ) < if x ≤ 0 then 0 else 1
    rw [if_neg hx.not_ge]; exact one_pos
  sqrt_mono x y hx h := by
    change (if x ≤ 0 then (0 : ℚ) else 1) ≤ if y ≤ 0 then 0 else 1
    split_ifs <;> linarith
  sqrt_scale k x hk hx := by
    change (if k ^ 2 * x ≤ 0 then (0 : ℚ) else 1) ≤ k * if x ≤ 0 then 0 else 1
    by_cases h : x ≤ 0
    · rw [if_pos h, if_pos (by rw [le_antisymm h hx]; simp)]; simp
    · rw [if_neg h]; split_ifs <;> linarith
  f32_mono x y h := h

/-- the hypotheses of `C138_library` can be met, with a test that finds a point -/
example : NotStricter alphaLib.env (.fin (1 / 100)) (.fin (2 / 100)) ∧
    (esdValueOf alphaLib 1 (.fin (1 / 100)) 5).lt (.fin 100) = true :=
  ⟨C138_library alphaLib_alpha (by unfold Near; norm_num) (by unfold Near; norm_num), by decide +kernel⟩

end Verif
