import Mathlib.Data.Real.Basic
import Mathlib.Data.Fin.Basic
import Mathlib.Algebra.Group.Fin.Basic

/-! # Specification: other units and other axes -/

namespace FastVPINNs.Spec

/-- A similarity of the plane: swap the axes if `swap`, rotate and scale by
`(x, y) ↦ (p x - q y, q x + p y)`, and translate. -/
structure Similarity where
  swap : Bool
  p : ℝ
  q : ℝ
  shift : ℝ × ℝ
  nonzero : p ^ 2 + q ^ 2 ≠ 0

namespace Similarity

variable (T : Similarity)

/-- The square of the factor by which lengths grow. -/
def scale : ℝ := T.p ^ 2 + T.q ^ 2

/-- The linear part. -/
def linear (z : ℝ × ℝ) : ℝ × ℝ :=
  let y := if T.swap then (z.2, z.1) else z
  (T.p * y.1 - T.q * y.2, T.q * y.1 + T.p * y.2)

/-- The image of a point. -/
def map (z : ℝ × ℝ) : ℝ × ℝ := T.linear z + T.shift

/-- The image of a cell; its vertices are listed in the opposite direction if the axes are swapped, so that
an anticlockwise list stays anticlockwise. -/
def cell (c : Fin 4 → ℝ × ℝ) : Fin 4 → ℝ × ℝ := fun i => T.map (c (if T.swap then -i else i))

/-- Coefficients `a, b, r` and forcing function `f` of an equation, and those (`a'`, `b'`, `r'`, `f'`) of the
same equation in the new coordinates. -/
structure SameEquation (a a' : ℝ × ℝ → ℝ) (b b' : ℝ × ℝ) (r r' : ℝ) (f f' : ℝ → ℝ → ℝ) : Prop where
  diffusion : ∀ z, a' (T.map z) = a z
  convection : T.linear b = (T.scale * b'.1, T.scale * b'.2)
  reaction : T.scale * r' = r
  forcing : ∀ z, T.scale * f' (T.map z).1 (T.map z).2 = f z.1 z.2

end Similarity

end FastVPINNs.Spec
