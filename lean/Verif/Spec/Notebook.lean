import Verif.Model.Notebook
import Verif.Spec.Driver

/-! # Specification: what a notebook should show -/

namespace FastVPINNs.Spec

/-- What a notebook leaves behind belongs to the training that goes through the states `st` and returns the losses
`outs`: the curve shows all total losses, the other three axes and the table belong to the final weights. -/
structure IsNotebookRecord (pts : List (ℝ × ℝ)) (u : ℝ × ℝ → ℝ) (value : Weights → ℝ × ℝ → ℝ)
    (final : Weights) (outs : List (TrainOut 1)) (R : NotebookResult) : Prop where
  weights : R.weights = final
  losses : R.lossArray = outs.map fun out => [out.loss 0]
  exact_ : R.yExact = pts.map u
  predicted : R.yPred = pts.map (value final)
  error : R.error = pts.map fun p => |u p - value final p|
  panels : R.panels = [("Loss Plot", .curve (outs.map fun out => [out.loss 0])),
    ("Exact Solution", .tricontour pts (pts.map u)), ("Predicted Solution", .tricontour pts (pts.map (value final))),
    ("Error", .tricontour pts (pts.map fun p => |u p - value final p|))]
  table : ∃ l2 linf l2r linfr l1 l1r, ErrorsAt pts u (value final) l2 linf l2r linfr l1 l1r ∧
    R.table = [("L2 Error", l2), ("L1 Error", l1), ("L_inf Error", linf), ("Relative L2 Error", l2r),
      ("Relative L1 Error", l1r), ("Relative L_inf Error", linfr)]

/-- Three points that span a triangle. -/
def SpansTriangle (pts : List (ℝ × ℝ)) : Prop :=
  ∃ a ∈ pts, ∃ b ∈ pts, ∃ c ∈ pts, (b.1 - a.1) * (c.2 - a.2) - (b.2 - a.2) * (c.1 - a.1) ≠ 0

end FastVPINNs.Spec
