import Verif.Props.Ratio

/-!
# C132: raising `threshold` can add an anomaly

The spectral residual model looks at the series and, if the series is not stationary, a second time at its differences. The second look may use what the first has
left of the allowed number of anomalies. A higher threshold leaves more.
-/

namespace Verif

open Spec

/-- the demo environment, with series of mean below 50 as the stationary ones -/
def lowEnv : Env := { demoEnv with stationary := fun l => decide (l.length = 0 ∨ npMean l < 50) }

theorem lowEnv_WF : lowEnv.WF := { demoEnv_WF with }

/-- **C132** (defect: intended property refuted). There is a library behaviour and a series of minutely values, sent with sensitivity 100 and
`maxAnomalyRatio` 1/14, for which a point is an anomaly with `threshold` 1 and not with `threshold` 0.5, and another one the other way round. -/
theorem C132_threshold : ∃ (E : Env) (rows : List (PyVal × PyVal)) (l l' : List Bool), E.WF ∧
    flaggedIn (predict E demoWild entireDetector (.frame true true rows)
      (optParams "minutely" 1 [("sensitivity", .int 100), ("maxAnomalyRatio", .float (.fin (1 / 14))), ("threshold", .float (.fin (1 / 2)))])) = some l ∧
    flaggedIn (predict E demoWild entireDetector (.frame true true rows)
      (optParams "minutely" 1 [("sensitivity", .int 100), ("maxAnomalyRatio", .float (.fin (1 / 14))), ("threshold", .float (.fin 1))])) = some l' ∧
    ∃ j k : Nat, l[j]? = some true ∧ l'[j]? = some false ∧ l[k]? = some false ∧ l'[k]? = some true := by
  refine ⟨lowEnv, demoRows [110, 120, 130, 140, 150, 160, 170, 80, 90, 200, 210, 220, 230, 240] 60,
    (List.range 14).map (· == 9), (List.range 14).map (· == 7), lowEnv_WF, ?_, ?_, 9, 7, ?_⟩ <;> decide +kernel

end Verif
