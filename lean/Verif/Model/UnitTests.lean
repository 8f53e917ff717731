import Verif.Model.DataHandler
import Verif.Model.Utils

/-! # The unit tests of spaces, boundary data and tensors, `tests/unit`

Each test is a function of the values that it takes from `pytest.mark.parametrize` or draws at random, and of the
literals that bound them.  The result is `.ok true` for a test that passes, `.ok false` for a failed assertion (or a
`pytest.raises` block that raises nothing), `.error` for an exception.  Not modelled: the directories that are created
and removed, the types of the tensors (`isinstance`, `dtype`), the tests of plots.  What `test_fe2d_cell.py`,
`test_geometry_2d.py`, `test_read_mesh.py` and `test_write_vtk.py` assert are statements of C01, C10, C11 and C12. -/

namespace FastVPINNs

/-- `np.isclose(a, b, rtol, atol)` of two finite numbers. -/
def NpIsclose (a b rtol atol : ℝ) : Prop := |a - b| ≤ atol + rtol * |b|

open Classical in
/-- `np.isclose(np.mean(l), b, …)`; the mean of no values is `nan`, which is close to nothing. -/
noncomputable def meanIsclose (l : List ℝ) (b rtol atol : ℝ) : Bool :=
  if l = [] then false else decide (NpIsclose (npMean l) b rtol atol)

/-- A `with pytest.raises(ValueError):` block with these calls: the first one that raises ends the block, and any
other exception passes through it. -/
def raisesValueError : List (Except PyErr Unit) → Except PyErr Bool
  | [] => .ok false
  | .ok () :: rest => raisesValueError rest
  | .error .valueError :: _ => .ok true
  | .error e :: _ => .error e

/-- Calls one after the other, each of which has to return. -/
def runAll : List (Except PyErr Unit) → Except PyErr Unit
  | [] => .ok ()
  | .ok () :: rest => runAll rest
  | .error e :: _ => .error e

/-- Forget the returned value. -/
def forgetValue {α : Type} (r : Except PyErr α) : Except PyErr Unit :=
  match r with
  | .error e => .error e
  | .ok _ => .ok ()

/-- A dictionary with the keys 1000, …, 1003, e.g. `test_quadrature.py:35-40`. -/
def sidesDict {α : Type} (g : ℤ → α) : List (ℤ × α) :=
  [(1000, g 1000), (1001, g 1001), (1002, g 1002), (1003, g 1003)]

/-- The arguments of `Fespace2D` that differ between the tests; `cell_type` is `domain.mesh_type`. -/
structure TestSpace where
  feOrder : ℤ
  feType : String
  quadOrder : ℤ
  quadType : String
  transformation : String

/-- See `TestSpace`. -/
def TestSpace.settings (p : TestSpace) (g : Geometry2D) : FESettings :=
  ⟨g.meshType, p.feOrder, p.feType, p.quadOrder, p.quadType, p.transformation⟩

/-- Domain, mesh and space of a test with an internal mesh, e.g. `test_fespace2d.py:268-309`, followed by what the
test does with them. -/
noncomputable def withInternalSpace {F V : Type} (ext : QuadRoutines) (tx ty : ℕ) (x y : ℝ × ℝ) (nx ny nb : ℕ)
    (sample : Fin 4 → Fin (nb / 4) → ℝ) (p : TestSpace) (dict : List (ℤ × (ℝ → ℝ → V))) (f : F)
    (body : InternalMesh → (nt nq : ℕ) → Fespace2D F V nt nq → Except PyErr Bool) : Except PyErr Bool :=
  match geometry2D "quadrilateral" "internal" tx ty false with
  | .error e => .error e.1
  | .ok g =>
    let m := generateQuadMeshInternal g x y nx ny nb sample
    match fespace2D ext m.meshPoints m.cells m.bdDict (p.settings g) dict f false with
    | .error e => .error e
    | .ok ⟨nq, S⟩ => body m _ nq S

/-- `test_quadrature.py:69-78` and `:128-137`: `int_sum` of a space, compared with `actual_area`. -/
noncomputable def areaAssert {F V : Type} {nt nq : ℕ} (S : Fespace2D F V nt nq) (actualArea rtol : ℝ) : Bool :=
  let intSum := S.feCell.foldl (fun intSum feCell => intSum + ∑ q, feCell.mult q) 0
  open Classical in decide (NpIsclose intSum actualArea rtol 1e-8)

/-- `test_quadrature.py:16-85` (`test_quadrature_uniform`). -/
noncomputable def testQuadratureUniform (ext : QuadRoutines) (x y : ℝ × ℝ) (nx ny nb : ℕ)
    (sample : Fin 4 → Fin (nb / 4) → ℝ) (p : TestSpace) : Except PyErr Bool :=
  withInternalSpace ext 10 10 x y nx ny nb sample p (sidesDict fun _ _ _ => (1 : ℝ)) (fun _ _ : ℝ => (1 : ℝ))
    fun _ _ _ S => .ok (areaAssert S ((x.2 - x.1) * (y.2 - y.1)) 1e-4)

/-- `test_quadrature.py:88-144` (`test_quadrature_complex`) from line 111 on, for cells and boundary points that
`read_mesh` returned. -/
noncomputable def testQuadratureComplex (ext : QuadRoutines) (meshPoints : List (ℝ × ℝ)) (cells : List Quad)
    (bd : BdDict) (p : TestSpace) (actualArea : ℝ) : Except PyErr Bool :=
  match fespace2D ext meshPoints cells bd
      ⟨"quadrilateral", p.feOrder, p.feType, p.quadOrder, p.quadType, p.transformation⟩
      [(1000, fun _ _ => (1 : ℝ))] (fun _ _ : ℝ => (1 : ℝ)) false with
  | .error e => .error e
  | .ok ⟨_, S⟩ => .ok (areaAssert S actualArea 1e-2)

/-- `test_fespace2d.py:191-253` (`test_dirichlet_boundary_data_vector`). -/
noncomputable def testBoundaryVector (ext : QuadRoutines) (nx ny nb : ℕ) (sample : Fin 4 → Fin (nb / 4) → ℝ)
    (p : TestSpace) (bval1 bval2 : ℝ) : Except PyErr Bool :=
  withInternalSpace ext 10 10 (0, 1) (0, 1) nx ny nb sample p (sidesDict fun _ _ _ => [1 * bval1, 1 * bval2])
    (fun _ _ : ℝ => (1 : ℝ)) fun _ _ _ S =>
      match generateDirichletBoundaryDataVector S.boundFunctionDict S.boundaryPoints 0 with
      | .error e => .error e
      | .ok data =>
        if data.1.length = data.2.length then .ok (meanIsclose data.2 bval1 1e-5 1e-6) else .ok false

/-- The calls in `test_fespace2d.py:317-321`, `:325-329` and `:333-337`. -/
def accessorCalls {F V : Type} {nt nq : ℕ} (S : Fespace2D F V nt nq) (i : ℤ) : List (Except PyErr Unit) :=
  [forgetValue (S.getShapeFunctionVal i), forgetValue (S.getShapeFunctionGradX i), forgetValue (S.getShapeFunctionGradY i),
    forgetValue (S.getShapeFunctionGradXRef i), forgetValue (S.getShapeFunctionGradYRef i)]

/-- `test_fespace2d.py:259-343` (`test_valid_cell_number`).  `drawn` are the outcomes of line 315. -/
noncomputable def testValidCellNumber (ext : QuadRoutines) (nx ny nb : ℕ) (sample : Fin 4 → Fin (nb / 4) → ℝ)
    (p : TestSpace) (drawn : Fin 5 → ℤ) : Except PyErr Bool :=
  withInternalSpace ext 10 10 (0, 1) (0, 1) nx ny nb sample p (sidesDict fun _ _ _ => (1 : ℝ))
    (fun _ _ : ℝ => (1 : ℝ)) fun _ _ _ S =>
      if S.nCells = nx * ny then
        match runAll ((List.ofFn drawn).flatMap (accessorCalls S)) with
        | .error e => .error e
        | .ok () =>
          match raisesValueError (accessorCalls S (-1)) with
          | .error e => .error e
          | .ok false => .ok false
          | .ok true => raisesValueError (accessorCalls S (nx * ny : ℕ))
      else .ok false

/-- `test_fespace2d.py:346-410` (`test_rhs_vector`). -/
noncomputable def testRhsVector (ext : QuadRoutines) (nx ny nb : ℕ) (sample : Fin 4 → Fin (nb / 4) → ℝ)
    (p : TestSpace) (bval1 bval2 fval1 fval2 : ℝ) : Except PyErr Bool :=
  withInternalSpace ext 10 10 (0, 1) (0, 1) nx ny nb sample p (sidesDict fun _ _ _ => [1 * bval1, 1 * bval2])
    [fun _ _ : ℝ => 1 * fval1, fun _ _ => 1 * fval2] fun _ nt _ S =>
      match S.getForcingFunctionValuesVector 0 0 with
      | .error e => .error e
      | .ok (_, S) =>
        if (nt : ℤ) = p.feOrder ^ 2 then
          match S.getForcingFunctionValuesVector 0 1 with
          | .error e => .error e
          | .ok _ => .ok (decide ((nt : ℤ) = p.feOrder ^ 2))
        else .ok false

/-- `test_data_functions.py:95-290`: `test_setup` and the assertions on shapes of the tests after it. -/
noncomputable def testDataShapes (ext : QuadRoutines) (tx ty nx ny nb : ℕ) (sample : Fin 4 → Fin (nb / 4) → ℝ)
    (p : TestSpace) (dict : List (ℤ × (ℝ → ℝ → ℝ))) (f : ℝ → ℝ → ℝ) : Except PyErr Bool :=
  withInternalSpace ext tx ty (0, 1) (0, 1) nx ny nb sample p dict f fun m nt nq S =>
    match dataHandler2D S true with
    | .error e => .error e
    | .ok (D, S) =>
      match getDirichletInput S with
      | .error e => .error e
      | .ok (input, output) =>
        match getTestPoints m.geometry (.error .typeError) with
        | .error e => .error e
        | .ok testPoints =>
          let nCell : ℤ := nx * ny
          .ok (decide (
            -- line 187, line 214
            ((D.nCells * nq : ℕ) : ℤ) = nCell * p.quadOrder ^ 2 ∧ input.length = output.length ∧
            -- lines 243-245
            ((D.nCells : ℤ), (nt : ℤ), (nq : ℤ)) = (nCell, p.feOrder ^ 2, p.quadOrder ^ 2) ∧
            -- line 268, line 290
            ((nt : ℤ), (D.nCells : ℤ)) = (p.feOrder ^ 2, nCell) ∧ testPoints.length = tx * ty))

/-- `test_dirichlet_boundary.py:14-53`: the loop over the boundary conditions. -/
noncomputable def boundaryMeans (bd : BdDict) (dict : List (ℤ × (ℝ → ℝ → ℝ))) (value : ℤ → ℝ) :
    List ℤ → Except PyErr Bool
  | [] => .ok true
  | boundId :: rest =>
    match dictGet dict boundId, dictGet bd boundId with
    | .ok g, .ok pts =>
      if meanIsclose (pts.map fun q => g q.1 q.2) (value boundId) 1e-5 1e-8 then boundaryMeans bd dict value rest
      else .ok false
    | .error e, _ => .error e
    | _, .error e => .error e

/-- `test_dirichlet_boundary.py:14-53` (`test_dirichlet_boundary_internal`); `value t` is `values[t - 1000]`. -/
noncomputable def testDirichletInternal (nx ny nb : ℕ) (sample : Fin 4 → Fin (nb / 4) → ℝ) (value : ℤ → ℝ) :
    Except PyErr Bool :=
  match geometry2D "quadrilateral" "internal" 10 10 false with
  | .error e => .error e.1
  | .ok g =>
    let m := generateQuadMeshInternal g (0, 1) (0, 1) nx ny nb sample
    boundaryMeans m.bdDict (sidesDict fun t _ _ => 1 * value t) value [1000, 1001, 1002, 1003]

/-- `test_numtest.py:14-71` (`test_numtest_points_internal`). -/
noncomputable def testNumPoints (tx ty nx ny nb : ℕ) (sample : Fin 4 → Fin (nb / 4) → ℝ) : Except PyErr Bool :=
  match geometry2D "quadrilateral" "internal" tx ty false with
  | .error e => .error e.1
  | .ok g =>
    match getTestPoints (generateQuadMeshInternal g (0, 1) (0, 1) nx ny nb sample).geometry (.error .typeError) with
    | .error e => .error e
    | .ok testPoints => .ok (decide (testPoints.length = tx * ty))

end FastVPINNs
