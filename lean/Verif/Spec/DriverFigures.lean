import Verif.Spec.Driver
import Verif.Spec.Figures

/-! # The figures of a script -/

namespace FastVPINNs.Spec

/-- The images of a run that reports after the given epochs. -/
def figureNames (reported : List ℕ) : List String :=
  ["exact_solution", "loss_function", "test_loss_function"] ++
    reported.flatMap fun e => ["prediction_" ++ toString (e + 1), "error_" ++ toString (e + 1)]

/-- The images of a run in the folder `out`: the exact solution `u`, after each reported epoch `e` the network `f (e + 1)`
with the weights after that epoch and its error, all losses, and the mean absolute errors of all reports.  Other images,
apart from `extra`, are as before. -/
structure IsFigureRecord (out : String) (nx ny : ℕ) (reported : List ℕ) (pts : List (ℝ × ℝ)) (u : ℝ × ℝ → ℝ)
    (f : ℕ → ℝ × ℝ → ℝ) (losses : List ℝ) (extra : List String) (s S : Pyplot) : Prop where
  exactImage : ∃ fig, S.images (pngPath out "exact_solution") = some fig ∧
    ShowsContour fig nx ny pts u "Exact Solution"
  prediction : ∀ e ∈ reported, ∃ fig, S.images (pngPath out ("prediction_" ++ toString (e + 1))) = some fig ∧
    ShowsContour fig nx ny pts (f (e + 1)) "Prediction"
  error : ∀ e ∈ reported, ∃ fig, S.images (pngPath out ("error_" ++ toString (e + 1))) = some fig ∧
    ShowsContour fig nx ny pts (fun p => |u p - f (e + 1) p|) "Error"
  loss : ∃ fig, S.images (pngPath out "loss_function") = some fig ∧
    ShowsCurve fig losses "Epochs" "Loss" "Loss Function"
  test : ∃ fig l1s, S.images (pngPath out "test_loss_function") = some fig ∧
    ShowsCurve fig l1s "Epochs" "Loss" "Loss Function" ∧
    List.Forall₂ (fun e l1 => pts.length * l1 = (pts.map fun p => |u p - f (e + 1) p|).sum) reported l1s
  others : ∀ p, (∀ name ∈ figureNames reported ++ extra, p ≠ pngPath out name) → S.images p = s.images p

/-- The additional images of the inverse script: the network `v` after the training and its error, and the value of
`eps` after each epoch beside the exact value `actual`. -/
structure IsFinalFigures (out : String) (nx ny : ℕ) (pts : List (ℝ × ℝ)) (u v : ℝ × ℝ → ℝ) (eps : List ℝ) (actual : ℝ)
    (S : Pyplot) : Prop where
  prediction : ∃ fig, S.images (pngPath out "final_prediction") = some fig ∧ ShowsContour fig nx ny pts v "Prediction"
  error : ∃ fig, S.images (pngPath out "final_error") = some fig ∧
    ShowsContour fig nx ny pts (fun p => |u p - v p|) "Error"
  eps : ∃ fig points, S.images (pngPath out "inverse_eps_prediction") = some fig ∧
    fig.drawn = [.curve points (some "Predicted Epsilon"), .axhline actual "Actual Epsilon"] ∧ IsCurveOf eps points ∧
    fig.title = "Inverse Parameter Prediction" ∧ fig.xLabel = "Epochs" ∧ fig.yLabel = "Epsilon" ∧ fig.legend = true

end FastVPINNs.Spec
