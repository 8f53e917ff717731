import Verif.Model.Setup

/-! # `fastvpinns/FE/FE2D_Cell.py` -/

namespace FastVPINNs

/-- The arguments that `Fespace2D` passes unchanged to every cell (`fespace2d.py:102-107, 213-218`). -/
structure FESettings where
  cellType : String
  feOrder : ℤ
  feType : String
  quadOrder : ℤ
  quadType : String
  feTransformationType : String

/-- The attributes of `FE2D_Cell` (`FE2D_Cell.py:39-82`) after construction, with `nt` test functions
and `nq` quadrature points.  Not kept: the strings of `FESettings` and the objects `fe_setup` and
`basis_function` (only their results are used later).  `F` is the type of the forcing function. -/
structure FE2DCell (F : Type) (nt nq : ℕ) where
  cellCoordinates : Quad
  fetransformation : FETransformation2D
  quadXi : Fin nq → ℝ
  quadEta : Fin nq → ℝ
  quadWeight : Fin nq → ℝ
  jacobian : Fin nq → ℝ
  mult : Fin nq → ℝ
  basisAtQuad : Fin nt → Fin nq → ℝ
  basisGradxAtQuad : Fin nt → Fin nq → ℝ
  basisGradyAtQuad : Fin nt → Fin nq → ℝ
  basisGradxAtQuadRef : Fin nt → Fin nq → ℝ
  basisGradyAtQuadRef : Fin nt → Fin nq → ℝ
  basisGradxxAtQuad : Fin nt → Fin nq → ℝ
  basisGradxyAtQuad : Fin nt → Fin nq → ℝ
  basisGradyyAtQuad : Fin nt → Fin nq → ℝ
  quadActualCoordinates : Fin nq → ℝ × ℝ
  forcingAtQuad : Fin nt → ℝ
  forcingFunction : F

/-- `matrix * self.mult` (`FE2D_Cell.py:213-218`): numpy broadcasts `mult` over the rows. -/
noncomputable def timesMult {nt nq : ℕ} (a : Fin nt → Fin nq → ℝ) (mult : Fin nq → ℝ) :
    Fin nt → Fin nq → ℝ := fun t p => a t p * mult p

/-- `FE2D_Cell.py:91-105` with the methods `137-289`: the constructor of `FE2D_Cell` after the basis and
the quadrature rule have been obtained.  A basis `None` fails at line 178 with `AttributeError`. -/
noncomputable def fe2dCellWith {F : Type} {nt : ℕ} (s : FESettings) (basis : Option (BasisFunction2D nt))
    (rule : QuadRule2D) (f : F) (c : Quad) : Except PyErr (FE2DCell F nt rule.num) :=
  -- lines 146-150
  match assignFeTransformation s.cellType s.feTransformationType c with
  | .error e => .error e
  | .ok tr =>
    -- lines 153-155
    let jac : Fin rule.num → ℝ := fun p => tr.jacobian (rule.xi p) (rule.eta p)
    -- line 230
    let mult : Fin rule.num → ℝ := fun p => rule.weights p * jac p
    match basis with
    | none => .error .attributeError
    | some b =>
      -- lines 178-186
      let val := b.value rule.xi rule.eta
      let gradxRef := b.gradx rule.xi rule.eta
      let gradyRef := b.grady rule.xi rule.eta
      let grad := tr.origFromRefDerivative gradxRef gradyRef rule.xi rule.eta
      -- lines 195-204
      match tr.origFromRefSecondDerivative (b.gradxx rule.xi rule.eta) (b.gradxy rule.xi rule.eta)
          (b.gradyy rule.xi rule.eta) rule.xi rule.eta with
      | .error e => .error e
      | .ok second =>
        .ok
          { cellCoordinates := c
            fetransformation := tr
            quadXi := rule.xi
            quadEta := rule.eta
            quadWeight := rule.weights
            jacobian := jac
            mult := mult
            basisAtQuad := timesMult val mult
            basisGradxAtQuad := timesMult grad.1 mult
            basisGradyAtQuad := timesMult grad.2 mult
            basisGradxAtQuadRef := gradxRef
            basisGradyAtQuadRef := gradyRef
            basisGradxxAtQuad := timesMult second.1 mult
            basisGradxyAtQuad := timesMult second.2.1 mult
            basisGradyyAtQuad := timesMult second.2.2 mult
            -- lines 242-246
            quadActualCoordinates := fun p => tr.originalFromRef (rule.xi p) (rule.eta p)
            -- lines 268-289
            forcingAtQuad := fun _ => 0
            forcingFunction := f }

/-- `FE2D_Cell.py:28-105` (constructor).  The number of quadrature points is that of the rule. -/
noncomputable def fe2dCell {F : Type} (ext : QuadRoutines) (s : FESettings) (f : F) (c : Quad) :
    Except PyErr (Σ nq, FE2DCell F (s.feOrder.toNat ^ 2) nq) :=
  -- line 127
  match assignBasisFunction s.cellType s.feOrder s.feType with
  | .error e => .error e
  | .ok basis =>
    -- line 135
    match assignQuadratureRules ext s.cellType s.quadOrder s.quadType with
    | .error e => .error e
    | .ok rule =>
      match fe2dCellWith s basis rule f c with
      | .error e => .error e
      | .ok cell => .ok ⟨rule.num, cell⟩

end FastVPINNs
