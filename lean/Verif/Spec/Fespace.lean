import Verif.Model.DataHandler
import Verif.Spec.Quadrature

/-! # Specification: finite element spaces -/

namespace FastVPINNs.Spec

/-- The external quadrature routine that a space with these settings uses behaves as documented. -/
def RoutinesOK (ext : QuadRoutines) (quadOrder : ℤ) (quadType : String) : Prop :=
  (quadType = "gauss-legendre" → LeggaussOK ext quadOrder.toNat) ∧
  (quadType = "gauss-jacobi" → RootsJacobiOK ext (quadOrder.toNat - 2))

/-- All boundary points in dictionary order, each with its tag. -/
def taggedPoints (bd : List (ℤ × List (ℝ × ℝ))) : List (ℤ × (ℝ × ℝ)) :=
  bd.flatMap fun e => e.2.map fun p => (e.1, p)

/-- Everything two spaces report through the per-cell accessors is the same. -/
def SameTables {F V : Type} {nt nq : ℕ} (S S' : Fespace2D F V nt nq) : Prop :=
  ∀ i : ℤ, S.getShapeFunctionVal i = S'.getShapeFunctionVal i ∧
    S.getShapeFunctionGradX i = S'.getShapeFunctionGradX i ∧
    S.getShapeFunctionGradY i = S'.getShapeFunctionGradY i ∧
    S.getShapeFunctionGradXRef i = S'.getShapeFunctionGradXRef i ∧
    S.getShapeFunctionGradYRef i = S'.getShapeFunctionGradYRef i ∧
    S.getQuadratureActualCoordinates i = S'.getQuadratureActualCoordinates i ∧
    S.getQuadratureWeights i = S'.getQuadratureWeights i

end FastVPINNs.Spec
