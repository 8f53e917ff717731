import Verif.Model.UnitTests

/-! # Specification for C114: arguments that `Fespace2D` accepts -/

namespace FastVPINNs.Spec

/-- The documented ranges of the arguments of `Fespace2D`. -/
structure Accepted (p : TestSpace) : Prop where
  order : 2 ≤ p.feOrder ∧ p.feOrder < 1000
  type : p.feType ∈ ["legendre", "jacobi", "legendre_special", "chebyshev_2", "jacobi_plain"]
  points : 3 ≤ p.quadOrder ∧ p.quadOrder ≤ 9999
  rule : p.quadType = "gauss-legendre" ∨ p.quadType = "gauss-jacobi"
  map : p.transformation = "bilinear" ∨ p.transformation = "affine"

end FastVPINNs.Spec
