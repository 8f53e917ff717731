import Verif.Spec.Stability
import Verif.Spec.Integral

/-! # Specification: forcing functions that make a diffusion parameter visible at a point -/

namespace FastVPINNs.Spec

/-- The forcing function `f` (or `-f`) shows at the point `s` with the amount `Q`: there is a function `q` with
`-Δq ≤ f` in the domain, not positive on the boundary, that is at least `Q` at `s`.  The best choice of `q` is the
solution of `-Δq = f` that vanishes on the boundary. -/
def ShowsAt (Ω : Set (ℝ × ℝ)) (f : ℝ → ℝ → ℝ) (s : ℝ × ℝ) (Q : ℝ) : Prop :=
  ∃ θ : ℝ, (θ = 1 ∨ θ = -1) ∧ ∃ q : ℝ × ℝ → ℝ, ContinuousOn q Ω ∧
    (∀ z ∈ interior Ω, DifferentiableAt ℝ q z ∧ DifferentiableAt ℝ (dx q) z ∧ DifferentiableAt ℝ (dy q) z ∧
      -(dx (dx q) z + dy (dy q) z) ≤ θ * f z.1 z.2) ∧
    (∀ z ∈ frontier Ω, q z ≤ 0) ∧ Q ≤ q s

/-- The square of the distance of two points. -/
def sqDist (z s : ℝ × ℝ) : ℝ := (z.1 - s.1) ^ 2 + (z.2 - s.2) ^ 2

end FastVPINNs.Spec
