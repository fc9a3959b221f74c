import Verif.Multi.Model

/-!
# Detection from collected forecasts

Model of `DetectionResults.compute_detection_results` (`multivariate/module.py:221-268`). `predict` does not call it.
-/

namespace Verif.Multi

/-- the tensors returned by `compute_detection_results` -/
structure Results where
  anomalies : List Bool
  scores : List ℚ
  severity : List ℚ
  forecast : List (List ℚ)
  contributors : List (List PyFloat)
  attn : Option (List (List (List ℚ)))
  deriving DecidableEq

/-- `x.unfold(0, tw, 1)`: all runs of `tw` consecutive entries -/
def unfoldRuns {α} (tw : Nat) (l : List α) : List (List α) :=
  (List.range (l.length + 1 - tw)).map fun i => (l.drop i).take tw

/-- `int(stacked_rmses.size(1) * 0.95)` (`module.py:236`) -/
def rank95 (tw : Nat) : Int := intMul tw (roundDouble (95 / 100))

/-- `compute_detection_results` (`module.py:221-268`) for forecasts and targets of the same shape. Shapes torch cannot broadcast and a
window longer than the series raise a `RuntimeError`. -/
def detectionResults (E : NumEnv) (preds targets : List (List ℚ)) (attn : Option (List (List (List ℚ)))) (pct : List ℚ) (lower upper : ℚ)
    (tw : Nat) : Except PyErr Results :=
  let n := targets.length
  let contrib := List.zipWith (List.zipWith (contribution E)) preds targets
  match contrib.mapM (fun r => weightRow r pct) with
  | .error _ => .error .runtimeError
  | .ok weighted =>
    let rmses := weighted.map npMean
    if n < tw then .error .runtimeError
    else do
      let len := n - tw + 1
      let all ← (unfoldRuns tw rmses).mapM fun w => pyIndex (sortQ w) (rank95 tw)
      let thresholds := all.take len
      let scores := rmses.drop (n - len)
      pure {
        anomalies := List.zipWith (decideAnomaly lower upper) scores thresholds
        scores := scores
        severity := scores.map fun s => s / (E.e - 1)
        forecast := preds.drop (n - len)
        contributors := (contrib.drop (n - len)).map fun r => r.map fun x => npDiv x r.sum
        attn := attn.map (attnChange tw len) }

end Verif.Multi
