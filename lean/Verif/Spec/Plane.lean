import Mathlib.Analysis.Calculus.Deriv.Basic
import Mathlib.Analysis.Convex.Hull
import Mathlib.LinearAlgebra.AffineSpace.AffineMap
import Mathlib.Data.Real.Basic

/-! # Specification: quadrilaterals and partial derivatives in the plane -/

namespace FastVPINNs.Spec

/-- Twice the signed area of the triangle `a b c`; positive iff `a, b, c` turn left. -/
def cross (a b c : ℝ × ℝ) : ℝ := (b.1 - a.1) * (c.2 - a.2) - (b.2 - a.2) * (c.1 - a.1)

/-- The vertices are those of a strictly convex quadrilateral, listed anticlockwise: every corner
is a left turn.  (With four vertices the exterior angles, each in `(0, π)`, can only add up to
`2π`.) -/
structure ConvexCCW (c : Fin 4 → ℝ × ℝ) : Prop where
  turn0 : 0 < cross (c 3) (c 0) (c 1)
  turn1 : 0 < cross (c 0) (c 1) (c 2)
  turn2 : 0 < cross (c 1) (c 2) (c 3)
  turn3 : 0 < cross (c 2) (c 3) (c 0)

/-- Opposite sides are parallel and of equal length. -/
def IsParallelogram (c : Fin 4 → ℝ × ℝ) : Prop := c 1 - c 0 = c 2 - c 3

/-- Signed area of the polygon `c 0, c 1, c 2, c 3` (shoelace formula). -/
noncomputable def polygonArea (c : Fin 4 → ℝ × ℝ) : ℝ :=
  (1 / 2) * ∑ i : Fin 4, ((c i).1 * (c (i + 1)).2 - (c (i + 1)).1 * (c i).2)

/-- Partial derivative with respect to the first coordinate. -/
noncomputable def dx (u : ℝ × ℝ → ℝ) (p : ℝ × ℝ) : ℝ := deriv (fun s => u (s, p.2)) p.1

/-- Partial derivative with respect to the second coordinate. -/
noncomputable def dy (u : ℝ × ℝ → ℝ) (p : ℝ × ℝ) : ℝ := deriv (fun s => u (p.1, s)) p.2

/-- Determinant of the matrix of partial derivatives of a plane map. -/
noncomputable def jacobianDet (F : ℝ × ℝ → ℝ × ℝ) (p : ℝ × ℝ) : ℝ :=
  dx (fun q => (F q).1) p * dy (fun q => (F q).2) p
    - dy (fun q => (F q).1) p * dx (fun q => (F q).2) p

/-- The reference square `[-1, 1]²`. -/
def refSquare : Set (ℝ × ℝ) := {p | -1 ≤ p.1 ∧ p.1 ≤ 1 ∧ -1 ≤ p.2 ∧ p.2 ≤ 1}

end FastVPINNs.Spec
