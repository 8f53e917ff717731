import Verif.Spec.Basis
import Verif.Spec.Plane

/-! # Specification: physical test functions -/

namespace FastVPINNs.Spec

/-- Bilinear interpolation of the four corners, the corners of the square taken anticlockwise. -/
noncomputable def bilinearImage (c : Fin 4 → ℝ × ℝ) (p : ℝ × ℝ) : ℝ × ℝ :=
  ((1 - p.1) * (1 - p.2) / 4) • c 0 + ((1 + p.1) * (1 - p.2) / 4) • c 1
    + ((1 + p.1) * (1 + p.2) / 4) • c 2 + ((1 - p.1) * (1 + p.2) / 4) • c 3

/-- On the cell, `ψ` is the reference test function number `t = N i + j` composed with the inverse of the
map from the reference square. -/
def IsTestFunction (feType : String) (N : ℕ) (c : Fin 4 → ℝ × ℝ) (t : ℕ) (ψ : ℝ × ℝ → ℝ) : Prop :=
  ∀ p ∈ refSquare, ψ (bilinearImage c p)
    = (testFamily feType (t / N)).eval p.1 * (testFamily feType (t % N)).eval p.2

/-- The point lies on one of the four edges of the cell. -/
def OnCellBoundary (c : Fin 4 → ℝ × ℝ) (x : ℝ × ℝ) : Prop :=
  ∃ i : Fin 4, x ∈ segment ℝ (c i) (c (i + 1))

end FastVPINNs.Spec
