import Verif.Model.Fespace
import Mathlib.Data.List.Perm.Basic
import Mathlib.Data.List.Forall2
import Mathlib.Data.Real.Basic
import Mathlib.Data.Fin.Basic
import Mathlib.Algebra.Group.Fin.Basic

/-! # Specification: the numbering of a mesh -/

namespace FastVPINNs.Spec

/-- The same quadrilateral, with the list of its vertices starting at another vertex. -/
def SameQuad (c' c : Fin 4 → ℝ × ℝ) : Prop := ∃ m : Fin 4, ∀ i, c' i = c (i + m)

/-- The same cells, in another order and each with another first vertex. -/
def SameMesh (cells' cells : List (Fin 4 → ℝ × ℝ)) : Prop :=
  ∃ l, l.Perm cells ∧ List.Forall₂ SameQuad cells' l

/-- The same test space and the same quadrature rule; the transformation may be another one. -/
structure SameDiscretisation (s' s : FESettings) : Prop where
  feType : s'.feType = s.feType
  feOrder : s'.feOrder = s.feOrder
  quadType : s'.quadType = s.quadType
  quadOrder : s'.quadOrder = s.quadOrder

end FastVPINNs.Spec
