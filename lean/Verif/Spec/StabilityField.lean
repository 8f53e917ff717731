import Verif.Spec.Stability
import Mathlib.Analysis.SpecialFunctions.Exp

/-! # Specification: stability for a coefficient field -/

namespace FastVPINNs.Spec

/-- The factors `A` for the equation `-∇·(a ∇u) + b·∇u + r u = f` on `Ω`.  For a coefficient that is at least `am` and
whose derivative in one direction is at most `G`, and any `α` with `κ = α (α am - G - |b|) > 0`, where `b` is the
convection in this direction: `(exp (α X) - 1) / κ`, with the width `X` in this direction.  And `1 / r`. -/
def StabilityFactorField (Ω : Set (ℝ × ℝ)) (a : ℝ × ℝ → ℝ) (b : ℝ × ℝ) (r A : ℝ) : Prop :=
  (∃ X α am G, Width Ω Prod.fst X ∧ 0 < α ∧ (∀ z ∈ interior Ω, am ≤ a z ∧ |dx a z| ≤ G) ∧
    0 < α * (α * am - G - |b.1|) ∧ A = (Real.exp (α * X) - 1) / (α * (α * am - G - |b.1|))) ∨
  (∃ Y α am G, Width Ω Prod.snd Y ∧ 0 < α ∧ (∀ z ∈ interior Ω, am ≤ a z ∧ |dy a z| ≤ G) ∧
    0 < α * (α * am - G - |b.2|) ∧ A = (Real.exp (α * Y) - 1) / (α * (α * am - G - |b.2|))) ∨
  (0 < r ∧ A = 1 / r)

end FastVPINNs.Spec
