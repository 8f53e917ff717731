import Verif.Spec.Plane

/-! # Specification: quadrilaterals whose corners all turn the same way -/

namespace FastVPINNs.Spec

/-- No corner turns right, or no corner turns left: the cell is convex (possibly with corners on a line), in either
orientation.  A cell with a re-entrant corner, and one whose sides intersect, turns both ways. -/
def TurnsOneWay (c : Fin 4 → ℝ × ℝ) : Prop :=
  (∀ i, 0 ≤ cross (c (i + 3)) (c i) (c (i + 1))) ∨ ∀ i, cross (c (i + 3)) (c i) (c (i + 1)) ≤ 0

end FastVPINNs.Spec
