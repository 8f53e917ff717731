import Verif.Spec.Plane

/-! # Specification: size, area and oscillation on the cells of a mesh -/

namespace FastVPINNs.Spec

/-- No cell has an area smaller than `m`. -/
def AreaAtLeast (cells : List (Fin 4 → ℝ × ℝ)) (m : ℝ) : Prop := ∀ c ∈ cells, m ≤ polygonArea c

/-- The values of `ρ` at two points of the same cell differ by at most `ω`. -/
def Oscillation (cells : List (Fin 4 → ℝ × ℝ)) (ρ : ℝ → ℝ → ℝ) (ω : ℝ) : Prop :=
  ∀ c ∈ cells, ∀ z ∈ convexHull ℝ (Set.range c), ∀ y ∈ convexHull ℝ (Set.range c), |ρ z.1 z.2 - ρ y.1 y.2| ≤ ω

end FastVPINNs.Spec
