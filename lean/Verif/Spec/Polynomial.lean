import Mathlib.Data.Real.Basic
import Mathlib.Algebra.BigOperators.Group.List.Basic

/-! # Specification: polynomial functions of two variables -/

namespace FastVPINNs.Spec

/-- `u` is a sum of monomials `a x^i y^j` whose exponents satisfy `E`. -/
def IsPolynomial (E : ℕ → ℕ → Prop) (u : ℝ × ℝ → ℝ) : Prop :=
  ∃ l : List (ℝ × ℕ × ℕ), (∀ t ∈ l, E t.2.1 t.2.2) ∧
    ∀ z, u z = (l.map fun t => t.1 * z.1 ^ t.2.1 * z.2 ^ t.2.2).sum

end FastVPINNs.Spec
