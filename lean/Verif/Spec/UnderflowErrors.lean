import Verif.Spec.Underflow

/-! # Specification: accuracy up to an absolute amount, norms of the exact solution -/

namespace FastVPINNs.Spec

/-- The computed number `r'` has the relative accuracy of `k` roundings with unit roundoff `ε`, up to an absolute amount
`t`: `r` times `(1 - ε) ^ k` is at most `r' + t`, and `r'` times `(1 - ε) ^ k` is at most `r + t`. -/
def AccurateUpTo (ε : ℝ) (k : ℕ) (t r' r : ℝ) : Prop := r * (1 - ε) ^ k ≤ r' + t ∧ r' * (1 - ε) ^ k ≤ r + t

/-- The mean of the absolute values. -/
noncomputable def meanAbs (a : List ℝ) : ℝ := (a.map fun x => |x|).sum / a.length

/-- The root of the mean of the squares. -/
noncomputable def rootMeanSquare (a : List ℝ) : ℝ := Real.sqrt ((a.map fun x => x ^ 2).sum / a.length)

/-- The number is a largest absolute value. -/
def IsMaxAbs (a : List ℝ) (m : ℝ) : Prop := (∀ x ∈ a, |x| ≤ m) ∧ ∃ x ∈ a, |x| = m

end FastVPINNs.Spec
