import Mathlib.Data.Real.Basic

/-! # C117: the names of the test functions -/

namespace FastVPINNs.Spec

/-- The three names of the differences of Legendre polynomials. -/
def Synonym (t : String) : Prop := t = "legendre" ∨ t = "jacobi" ∨ t = "legendre_special"

/-- The names of the families whose functions vanish on the boundary of the reference square. -/
def BubbleType (t : String) : Prop := Synonym t ∨ t = "chebyshev_2"

/-- Two losses that are not negative and within the factor `k` of each other; so one is zero exactly if the other is. -/
def Comparable (k L₁ L₂ : ℝ) : Prop := 0 ≤ L₁ ∧ 0 ≤ L₂ ∧ L₁ ≤ k * L₂ ∧ L₂ ≤ k * L₁

end FastVPINNs.Spec
