import Mathlib.Data.Real.Basic

/-! # C109: how the losses for a smaller and a larger `fe_order` compare -/

namespace FastVPINNs.Spec

/-- The loss `L₁` for `n²` test functions per cell is at most `(m / n)²` times the loss `L₂` for `m²` test
functions per cell, and it is zero whenever `L₂` is. -/
def Controls (n m : ℕ) (L₁ L₂ : ℝ) : Prop :=
  (n : ℝ) ^ 2 * L₁ ≤ (m : ℝ) ^ 2 * L₂ ∧ (L₂ = 0 → L₁ = 0)

end FastVPINNs.Spec
