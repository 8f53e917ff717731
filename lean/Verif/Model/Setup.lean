import Verif.Model.Basis
import Verif.Model.Quadrature
import Verif.Model.Transform

/-! # `fastvpinns/FE/fe2d_setup_main.py` -/

namespace FastVPINNs

/-- `fe2d_setup_main.py:38-79` (`assign_basis_function`).  `none` is Python's `None`, returned for
any other cell type after printing a message. -/
noncomputable def assignBasisFunction (cellType : String) (feOrder : ℤ) (feType : String) :
    Except PyErr (Option (BasisFunction2D (feOrder.toNat ^ 2))) :=
  if feOrder ≤ 1 ∨ feOrder ≥ 1000 then .error .valueError
  else if cellType = "quadrilateral" then
    if feType = "legendre" ∨ feType = "jacobi" then .ok (some (Basis2DQNLegendre _))
    else if feType = "legendre_special" then .ok (some (Basis2DQNLegendreSpecial _))
    else if feType = "chebyshev_2" then .ok (some (Basis2DQNChebyshev2 _))
    else if feType = "jacobi_plain" then .ok (some (Basis2DQNJacobi _))
    else .error .valueError
  else .ok none

/-- `fe2d_setup_main.py:81-105` (`assign_quadrature_rules`). -/
noncomputable def assignQuadratureRules (ext : QuadRoutines) (cellType : String) (quadOrder : ℤ)
    (quadType : String) : Except PyErr QuadRule2D :=
  if cellType = "quadrilateral" then
    if quadOrder < 3 then .error .valueError
    else if quadOrder ≥ 2 ∧ quadOrder ≤ 9999 then quadratureformulasQuad2D ext quadOrder quadType
    else .error .valueError
  else .error .valueError

/-- `fe2d_setup_main.py:107-134` (`assign_fe_transformation`). -/
noncomputable def assignFeTransformation (cellType : String) (feTransformationType : String)
    (c : Quad) : Except PyErr FETransformation2D :=
  if cellType = "quadrilateral" then
    if feTransformationType = "affine" then .ok (quadAffin c)
    else if feTransformationType = "bilinear" then .ok (quadBilinear c)
    else .error .valueError
  else .error .valueError

end FastVPINNs
