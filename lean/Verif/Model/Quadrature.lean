import Verif.Model.Numpy
import Verif.Model.Orthopoly
import Mathlib.Algebra.Polynomial.Eval.Defs

/-! # `fastvpinns/FE/quadratureformulas_quad2d.py` -/

namespace FastVPINNs

open Polynomial

/-- The external routines `np.polynomial.legendre.leggauss(n)` and
`scipy.special.roots_jacobi(n, a, b)`, each returning nodes and weights
(`quadratureformulas_quad2d.py:58, 78, 90`).  They are parameters of the model; their documented
behaviour is stated in `Verif/Spec/Quadrature.lean` and appears as hypothesis where it is used. -/
structure QuadRoutines where
  leggauss : (n : ℕ) → (Fin n → ℝ) × (Fin n → ℝ)
  rootsJacobi : (n : ℕ) → ℝ → ℝ → (Fin n → ℝ) × (Fin n → ℝ)

/-- A pair of 1D arrays `nodes_1d, weights_1d` (`quadratureformulas_quad2d.py:58`) or `x, w`
(`quadratureformulas_quad2d.py:138`). -/
structure QuadRule1D where
  n : ℕ
  node : Fin n → ℝ
  weight : Fin n → ℝ

/-- The three arrays `quad_weights, xi_quad, eta_quad` stored by the constructor
(`quadratureformulas_quad2d.py:71-73, 149-151`) and returned by `get_quad_values`
(`quadratureformulas_quad2d.py:160-167`). -/
structure QuadRule2D where
  num : ℕ
  weights : Fin num → ℝ
  xi : Fin num → ℝ
  eta : Fin num → ℝ

/-- `quadratureformulas_quad2d.py:63-73` (and the identical `141-151`): meshgrid of the nodes,
flattened, and outer product of the weights, flattened. -/
def tensorRule (r : QuadRule1D) : QuadRule2D where
  num := r.n * r.n
  xi := flatten (meshgridX r.node r.node)
  eta := flatten (meshgridY r.node r.node)
  weights := flatten (outer r.weight r.weight)

/-- `quadratureformulas_quad2d.py:88-135` (`GaussLobattoJacobiWeights(Q, a, b)`) for `a = b = 0`, the
only values it is called with (line 138), so the branch of lines 95-130 is not reachable and not
modelled.  `[−1] ++ X ++ [1]` is built by `np.append`, lines 131-134. -/
noncomputable def gaussLobattoJacobiWeights (ext : QuadRoutines) (Q : ℕ) : QuadRule1D :=
  let X := (ext.rootsJacobi (Q - 2) (0 + 1) (0 + 1)).1
  let W : Fin (Q - 2) → ℝ := fun i =>
    2 / (((Q : ℝ) - 1) * Q * ((jacobiP (Q - 1) 0 0).eval (X i)) ^ 2)
  let Wl : ℝ := 2 / (((Q : ℝ) - 1) * Q * ((jacobiP (Q - 1) 0 0).eval (-1)) ^ 2)
  let Wr : ℝ := 2 / (((Q : ℝ) - 1) * Q * ((jacobiP (Q - 1) 0 0).eval 1) ^ 2)
  { n := Q - 2 + 1 + 1
    node := Fin.cons (-1) (Fin.snoc (α := fun _ => ℝ) X 1)
    weight := Fin.cons Wl (Fin.snoc (α := fun _ => ℝ) W Wr) }

/-- `quadratureformulas_quad2d.py:33-158` (constructor).  `leggauss` raises `ValueError` for a
non-positive number of points, `roots_jacobi` for `n < 1` (documented behaviour of the external
routines).  Argument `quadOrder : ℤ` since Python accepts any integer. -/
noncomputable def quadratureformulasQuad2D (ext : QuadRoutines) (quadOrder : ℤ)
    (quadType : String) : Except PyErr QuadRule2D :=
  if quadType = "gauss-legendre" then
    if quadOrder ≤ 0 then .error .valueError
    else
      let r := ext.leggauss quadOrder.toNat
      .ok (tensorRule ⟨quadOrder.toNat, r.1, r.2⟩)
  else if quadType = "gauss-jacobi" then
    if quadOrder - 2 < 1 then .error .valueError
    else .ok (tensorRule (gaussLobattoJacobiWeights ext quadOrder.toNat))
  else .error .valueError

/-- `quadratureformulas_quad2d.py:169-176` (`get_num_quad_points`): the base class stores
`num_quad_points = quad_order * quad_order` (lines 43-45). -/
def getNumQuadPoints (quadOrder : ℤ) : ℤ := quadOrder * quadOrder

end FastVPINNs
