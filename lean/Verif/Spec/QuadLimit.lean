import Verif.Spec.Integral
import Verif.Spec.WeakForm

/-! # C111: the losses of the variational problem, with exact integrals -/

namespace FastVPINNs.Spec

/-- The sum over the cells of the mean square of the weak forms `∫ a ∇u·∇ψ + (b·∇u + r u - f) ψ` for the `N²` test
functions `ψ k t` of each cell. -/
noncomputable def exactPdeLoss (cells : List (Fin 4 → ℝ × ℝ)) (N : ℕ) (ψ : ℕ → ℕ → ℝ × ℝ → ℝ) (a u : ℝ × ℝ → ℝ)
    (b : ℝ × ℝ) (r : ℝ) (f : ℝ → ℝ → ℝ) : ℝ :=
  ∑ k : Fin cells.length, meanSq fun t : Fin (N ^ 2) => weakIntegral (cellSet cells[k]) a u b r f (ψ k t)

/-- The mean square of the deviations from given values at given points. -/
noncomputable def dataLoss (points : List (ℝ × ℝ)) (values : List ℝ) (u : ℝ × ℝ → ℝ) : ℝ :=
  meanSq fun i : Fin points.length => u points[i] - values.getD i 0

end FastVPINNs.Spec
