import Mathlib.Analysis.SpecialFunctions.Exp
import Mathlib.Algebra.BigOperators.Group.Finset.Basic

/-! # Specification: dot-product attention over points -/

namespace FastVPINNs.Spec

/-- The scalar product of two points. -/
def dot (p q : ℝ × ℝ) : ℝ := p.1 * q.1 + p.2 * q.2

/-- Every point of `Z` is the mean of all points of `X`, weighted with the exponentials of the scalar
products with the point of `X` in the same place. -/
def IsAttention {n : ℕ} (X Z : Fin n → ℝ × ℝ) : Prop :=
  ∀ r, (∑ s, Real.exp (dot (X r) (X s))) * (Z r).1 = ∑ s, Real.exp (dot (X r) (X s)) * (X s).1 ∧
    (∑ s, Real.exp (dot (X r) (X s))) * (Z r).2 = ∑ s, Real.exp (dot (X r) (X s)) * (X s).2

end FastVPINNs.Spec
