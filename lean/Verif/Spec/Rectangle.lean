import Mathlib.Data.Real.Basic
import Mathlib.Data.Fin.VecNotation
import Mathlib.Order.Interval.Set.Defs
import Mathlib.Data.Set.Prod

/-! # Specification: rectangular grids -/

namespace FastVPINNs.Spec

/-- The `i`-th of the `n + 1` grid lines dividing `[a, b]` into `n` equal parts. -/
noncomputable def gridLine (a b : ℝ) (n i : ℕ) : ℝ := a + (b - a) * (i / n)

/-- The corners of the rectangle `[a, b] × [c, d]`: bottom-left, bottom-right, top-right,
top-left. -/
def rectangle (a b c d : ℝ) : Fin 4 → ℝ × ℝ := ![(a, c), (b, c), (b, d), (a, d)]

/-- The grid rectangle in column `i` and row `j`. -/
noncomputable def gridCell (x y : ℝ × ℝ) (nx ny i j : ℕ) : Fin 4 → ℝ × ℝ :=
  rectangle (gridLine x.1 x.2 nx i) (gridLine x.1 x.2 nx (i + 1))
    (gridLine y.1 y.2 ny j) (gridLine y.1 y.2 ny (j + 1))

/-- The closed domain. -/
def domain (x y : ℝ × ℝ) : Set (ℝ × ℝ) := Set.Icc x.1 x.2 ×ˢ Set.Icc y.1 y.2

end FastVPINNs.Spec
