import Verif.Model.Common
import Mathlib.Data.Fin.Tuple.Basic

/-!
# The numpy primitives used by the modelled code

Each definition models an external numpy routine by its documented meaning, over `ℝ`.
-/

namespace FastVPINNs

/-- First output of `np.meshgrid(x, y)` with the default `indexing="xy"`: shape
`(len(y), len(x))`, entry `[i, j]` is `x[j]`.  Called in
`fastvpinns/FE/quadratureformulas_quad2d.py:65, 147` and `fastvpinns/Geometry/geometry_2d.py:432`. -/
def meshgridX {m n : ℕ} (x : Fin n → ℝ) (_y : Fin m → ℝ) : Fin m → Fin n → ℝ := fun _ j => x j

/-- Second output of `np.meshgrid(x, y)`: entry `[i, j]` is `y[i]`.  Called at the same places. -/
def meshgridY {m n : ℕ} (_x : Fin n → ℝ) (y : Fin m → ℝ) : Fin m → Fin n → ℝ := fun i _ => y i

/-- `ndarray.flatten()` of a matrix (C order).  Called at
`fastvpinns/FE/quadratureformulas_quad2d.py:66-70, 148-152`,
`fastvpinns/Geometry/geometry_2d.py:435-436`. -/
def flatten {α : Type*} {m n : ℕ} (M : Fin m → Fin n → α) : Fin (m * n) → α :=
  fun k => M k.divNat k.modNat

/-- `(w[:, np.newaxis] * v)`: outer product.  Called at
`fastvpinns/FE/quadratureformulas_quad2d.py:70, 152`. -/
def outer {m n : ℕ} (w : Fin m → ℝ) (v : Fin n → ℝ) : Fin m → Fin n → ℝ := fun i j => w i * v j

/-- `np.linspace(a, b, n)`.  Called at `fastvpinns/Geometry/geometry_2d.py:170, 256-257, 428-429`.
(With `n = 1` the single value is `a`, as in numpy: the division by zero gives `0` in Lean and is
multiplied by the index `0`.) -/
noncomputable def linspace (a b : ℝ) (n : ℕ) : Fin n → ℝ :=
  fun i => a + i.val * ((b - a) / ((n : ℝ) - 1))

end FastVPINNs
