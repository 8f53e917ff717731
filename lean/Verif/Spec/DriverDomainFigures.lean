import Verif.Model.DriverDomain
import Verif.Spec.DriverFigures

/-! # The figures of the scripts for a coefficient field -/

namespace FastVPINNs.Spec

/-- The figure is a contour plot over the points `pts`, arranged row by row in a matrix, of the values `v`, one for each
point. -/
structure ShowsValues (fig : Figure) (nx ny : ℕ) (pts : List (ℝ × ℝ)) (v : List ℝ) (title : String) : Prop where
  drawn : ∃ x y z, fig.drawn = [.contour nx ny x y z] ∧ ∀ (i : Fin nx) (j : Fin ny),
    pts[i.val * ny + j.val]? = some (x i j, y i j) ∧ v[i.val * ny + j.val]? = some (z i j)
  title : fig.title = title
  colorbar : fig.colorbar = true

/-- The absolute differences of two arrays. -/
noncomputable def absDiff (a b : List ℝ) : List ℝ := List.zipWith (fun x y => |x - y|) a b

/-- The curves: all losses, and the mean absolute errors of all reports. -/
structure ShowsCurves (out : String) (reports : List DomainReport) (losses : List ℝ) (S : Pyplot) : Prop where
  loss : ∃ fig, S.images (pngPath out "loss_function") = some fig ∧
    ShowsCurve fig losses "Epochs" "Loss" "Loss Function"
  test : ∃ fig, S.images (pngPath out "test_loss_function") = some fig ∧
    ShowsCurve fig (reports.map fun r => r.errors.2.2.2.2.1) "Epochs" "Loss" "Loss Function"

/-- The names of the images of a run on an internal mesh. -/
def domainFigureNames (reports : List DomainReport) : List String :=
  ["exact_solution", "loss_function", "test_loss_function"] ++
    reports.flatMap fun r => ["prediction_" ++ toString (r.epoch + 1), "error_" ++ toString (r.epoch + 1),
      "inverse_prediction_" ++ toString (r.epoch + 1), "inverse_error_" ++ toString (r.epoch + 1)]

/-- The images of a run on an internal mesh: the exact values, for each report the reported values of solution and
coefficient and their absolute errors, and the curves. -/
structure IsDomainFigures (out : String) (nx ny : ℕ) (pts : List (ℝ × ℝ)) (exactVals actual : List ℝ)
    (reports : List DomainReport) (losses : List ℝ) (s S : Pyplot) : Prop where
  exactImage : ∃ fig, S.images (pngPath out "exact_solution") = some fig ∧
    ShowsValues fig nx ny pts exactVals "Exact Solution"
  prediction : ∀ r ∈ reports, ∃ fig, S.images (pngPath out ("prediction_" ++ toString (r.epoch + 1))) = some fig ∧
    ShowsValues fig nx ny pts r.yPred "Prediction"
  error : ∀ r ∈ reports, ∃ fig, S.images (pngPath out ("error_" ++ toString (r.epoch + 1))) = some fig ∧
    ShowsValues fig nx ny pts (absDiff exactVals r.yPred) "Error"
  coefficient : ∀ r ∈ reports, ∃ fig,
    S.images (pngPath out ("inverse_prediction_" ++ toString (r.epoch + 1))) = some fig ∧
    ShowsValues fig nx ny pts r.invPred "Inverse Parameter Prediction"
  coefficientError : ∀ r ∈ reports, ∃ fig,
    S.images (pngPath out ("inverse_error_" ++ toString (r.epoch + 1))) = some fig ∧
    ShowsValues fig nx ny pts (absDiff actual r.invPred) "Inverse Parameter Error"
  curves : ShowsCurves out reports losses S
  others : ∀ p, (∀ name ∈ domainFigureNames reports, p ≠ pngPath out name) → S.images p = s.images p

end FastVPINNs.Spec
