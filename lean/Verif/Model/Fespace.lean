import Verif.Model.Cell
import Verif.Model.Geometry

/-! # `fastvpinns/FE/fespace2d.py`

Not modelled: progress bar, figures (`plt.*`), printing.  The statistics computed while plotting and
the errors raised there are modelled. -/

namespace FastVPINNs

/-- The attributes of `Fespace2D` (`fespace2d.py:118-162`).  `F` is the type of the forcing function,
`V` the type of the values of the boundary functions (`ℝ` for scalar problems, `List ℝ` for
vector-valued ones).  `meshPoints` are the first two columns of `mesh.points`, the only use made of
`mesh`.  `bound_condition_dict` is stored but never read, and omitted. -/
structure Fespace2D (F V : Type) (nt nq : ℕ) where
  settings : FESettings
  meshPoints : List (ℝ × ℝ)
  nCells : ℕ
  feCell : List (FE2DCell F nt nq)
  boundaryPoints : BdDict
  boundFunctionDict : List (ℤ × (ℝ → ℝ → V))
  totalDofs : ℕ
  totalBoundaryDofs : ℕ
  totalDirichletDofs : ℕ
  dirichletBoundaryData : List (ℝ × ℝ) × List V

/-- `fespace2d.py:185-249` (`set_finite_elements`): returns `fe_cell` and `total_dofs`.  Simplification:
Python builds basis and quadrature rule again for every cell, from the same arguments; here they are
built once, so that all cells have the same number of points by type
(`setFiniteElements_eq_mapE` proves that this gives what the loop gives).  Without cells line 238
raises `IndexError`. -/
noncomputable def setFiniteElements {F : Type} (ext : QuadRoutines) (s : FESettings) (f : F)
    (cells : List Quad) :
    Except PyErr ((Σ nq, List (FE2DCell F (s.feOrder.toNat ^ 2) nq)) × ℕ) :=
  match cells with
  | [] => .error .indexError
  | _ =>
    match assignBasisFunction s.cellType s.feOrder s.feType with
    | .error e => .error e
    | .ok basis =>
      match assignQuadratureRules ext s.cellType s.quadOrder s.quadType with
      | .error e => .error e
      | .ok rule =>
        match mapE (fe2dCellWith s basis rule f) cells with
        | .error e => .error e
        -- line 224: `dof += self.fe_cell[i].basis_at_quad.shape[1]`
        | .ok feCell => .ok (⟨rule.num, feCell⟩, feCell.foldl (fun dof _ => dof + rule.num) 0)

/-- `fespace2d.py:259-276`. -/
def markerList : List String :=
  ["o", ".", ",", "x", "+", "P", "s", "D", "d", "^", "v", "<", ">", "p", "h", "H"]

/-- `fespace2d.py:315-328`: the loop over the boundary dictionary in `generate_plot`, from position `i`
with `bound_dof` so far.  `x[0]` of an empty array and `marker_list[i + 1]` may raise `IndexError`. -/
def plotBoundaryLoop : BdDict → ℕ → ℕ → Except PyErr ℕ
  | [], _, boundDof => .ok boundDof
  | (_, pts) :: rest, i, boundDof =>
    match pts with
    | [] => .error .indexError
    | p :: _ =>
      let x := pts ++ [p]
      match pyIndex markerList (i + 1 : ℕ) with
      | .error e => .error e
      | .ok _ => plotBoundaryLoop rest (i + 1) (boundDof + x.length)

/-- `fespace2d.py:251-342` (`generate_plot`): returns `total_dofs` (line 310) and
`total_boundary_dofs` (line 328). -/
def generatePlot {F : Type} {nt nq : ℕ} (feCell : List (FE2DCell F nt nq)) (bd : BdDict) :
    Except PyErr (ℕ × ℕ) :=
  let totalQuad := feCell.foldl (fun total _ => total + nq) 0
  match plotBoundaryLoop bd 0 0 with
  | .error e => .error e
  | .ok boundDof => .ok (totalQuad, boundDof)

/-- `fespace2d.py:359-365`: the inner loop for one boundary tag. -/
def dirichletTag {V : Type} (dict : List (ℤ × (ℝ → ℝ → V))) (tag : ℤ) :
    List (ℝ × ℝ) → List (ℝ × ℝ) → List V → Except PyErr (List (ℝ × ℝ) × List V)
  | [], x, y => .ok (x, y)
  | pt :: pts, x, y =>
    match dictGet dict tag with
    | .error e => .error e
    | .ok g => dirichletTag dict tag pts (x ++ [(pt.1, pt.2)]) (y ++ [g pt.1 pt.2])

/-- `fespace2d.py:357-365`: the loop over the boundary dictionary. -/
def dirichletLoop {V : Type} (dict : List (ℤ × (ℝ → ℝ → V))) :
    BdDict → List (ℝ × ℝ) → List V → Except PyErr (List (ℝ × ℝ) × List V)
  | [], x, y => .ok (x, y)
  | (tag, pts) :: rest, x, y =>
    match dirichletTag dict tag pts x y with
    | .error e => .error e
    | .ok (x', y') => dirichletLoop dict rest x' y'

/-- `fespace2d.py:344-372` (`generate_dirichlet_boundary_data`), the returned pair. -/
def generateDirichletBoundaryData {V : Type} (dict : List (ℤ × (ℝ → ℝ → V))) (bd : BdDict) :
    Except PyErr (List (ℝ × ℝ) × List V) :=
  dirichletLoop dict bd [] []

/-- `fespace2d.py:388-396` (inner loop of the vector variant): as above but with
`bound_function_dict[bound_id](pt[0], pt[1])[component]`, which may raise `IndexError`. -/
def dirichletTagVector (dict : List (ℤ × (ℝ → ℝ → List ℝ))) (component : ℤ) (tag : ℤ) :
    List (ℝ × ℝ) → List (ℝ × ℝ) → List ℝ → Except PyErr (List (ℝ × ℝ) × List ℝ)
  | [], x, y => .ok (x, y)
  | pt :: pts, x, y =>
    match dictGet dict tag with
    | .error e => .error e
    | .ok g =>
      match pyIndex (g pt.1 pt.2) component with
      | .error e => .error e
      | .ok v => dirichletTagVector dict component tag pts (x ++ [(pt.1, pt.2)]) (y ++ [v])

/-- `fespace2d.py:388-396`. -/
def dirichletLoopVector (dict : List (ℤ × (ℝ → ℝ → List ℝ))) (component : ℤ) :
    BdDict → List (ℝ × ℝ) → List ℝ → Except PyErr (List (ℝ × ℝ) × List ℝ)
  | [], x, y => .ok (x, y)
  | (tag, pts) :: rest, x, y =>
    match dirichletTagVector dict component tag pts x y with
    | .error e => .error e
    | .ok (x', y') => dirichletLoopVector dict component rest x' y'

/-- `fespace2d.py:374-398` (`generate_dirichlet_boundary_data_vector`). -/
def generateDirichletBoundaryDataVector (dict : List (ℤ × (ℝ → ℝ → List ℝ))) (bd : BdDict)
    (component : ℤ) : Except PyErr (List (ℝ × ℝ) × List ℝ) :=
  dirichletLoopVector dict component bd [] []

/-- `fespace2d.py:97-183` (constructor). -/
noncomputable def fespace2D {F V : Type} (ext : QuadRoutines) (meshPoints : List (ℝ × ℝ))
    (cells : List Quad) (bd : BdDict) (s : FESettings) (dict : List (ℤ × (ℝ → ℝ → V))) (f : F)
    (generateMeshPlot : Bool) :
    Except PyErr (Σ nq, Fespace2D F V (s.feOrder.toNat ^ 2) nq) :=
  -- lines 134-137
  if s.cellType = "triangle" then .error .valueError
  else
    -- line 154
    match setFiniteElements ext s f cells with
    | .error e => .error e
    | .ok (⟨nq, feCell⟩, dofs) =>
      -- lines 157-158
      match (if generateMeshPlot then generatePlot feCell bd else .ok (dofs, 0)) with
      | .error e => .error e
      | .ok (totalDofs, totalBoundaryDofs) =>
        -- line 162
        match generateDirichletBoundaryData dict bd with
        | .error e => .error e
        | .ok data =>
          .ok ⟨nq,
            { settings := s
              meshPoints := meshPoints
              nCells := cells.length
              feCell := feCell
              boundaryPoints := bd
              boundFunctionDict := dict
              totalDofs := totalDofs
              totalBoundaryDofs := totalBoundaryDofs
              -- line 368
              totalDirichletDofs := data.1.length
              dirichletBoundaryData := data }⟩

namespace Fespace2D

variable {F V : Type} {nt nq : ℕ}

/-- The guard at the head of every accessor (`fespace2d.py:412-415, 433-436, 452-455, 471-474, 497-500,
523-526, 546-549, 578-581, 624-627`) followed by `self.fe_cell[cell_index]`. -/
def cellAt (S : Fespace2D F V nt nq) (i : ℤ) : Except PyErr (FE2DCell F nt nq) :=
  if i ≥ S.feCell.length ∨ i < 0 then .error .valueError else pyIndex S.feCell i

/-- `fespace2d.py:400-417`. -/
def getShapeFunctionVal (S : Fespace2D F V nt nq) (i : ℤ) : Except PyErr (Fin nt → Fin nq → ℝ) :=
  match S.cellAt i with
  | .error e => .error e
  | .ok c => .ok c.basisAtQuad

/-- `fespace2d.py:419-438`. -/
def getShapeFunctionGradX (S : Fespace2D F V nt nq) (i : ℤ) : Except PyErr (Fin nt → Fin nq → ℝ) :=
  match S.cellAt i with
  | .error e => .error e
  | .ok c => .ok c.basisGradxAtQuad

/-- `fespace2d.py:440-457`. -/
def getShapeFunctionGradXRef (S : Fespace2D F V nt nq) (i : ℤ) :
    Except PyErr (Fin nt → Fin nq → ℝ) :=
  match S.cellAt i with
  | .error e => .error e
  | .ok c => .ok c.basisGradxAtQuadRef

/-- `fespace2d.py:459-476`. -/
def getShapeFunctionGradY (S : Fespace2D F V nt nq) (i : ℤ) : Except PyErr (Fin nt → Fin nq → ℝ) :=
  match S.cellAt i with
  | .error e => .error e
  | .ok c => .ok c.basisGradyAtQuad

/-- `fespace2d.py:478-502`. -/
def getShapeFunctionGradYRef (S : Fespace2D F V nt nq) (i : ℤ) :
    Except PyErr (Fin nt → Fin nq → ℝ) :=
  match S.cellAt i with
  | .error e => .error e
  | .ok c => .ok c.basisGradyAtQuadRef

/-- `fespace2d.py:504-528`. -/
def getQuadratureActualCoordinates (S : Fespace2D F V nt nq) (i : ℤ) :
    Except PyErr (Fin nq → ℝ × ℝ) :=
  match S.cellAt i with
  | .error e => .error e
  | .ok c => .ok c.quadActualCoordinates

/-- `fespace2d.py:530-551`. -/
def getQuadratureWeights (S : Fespace2D F V nt nq) (i : ℤ) : Except PyErr (Fin nq → ℝ) :=
  match S.cellAt i with
  | .error e => .error e
  | .ok c => .ok c.mult

/-- `self.fe_cell[cell_index].forcing_at_quad = …` (`fespace2d.py:607, 639`). -/
def setForcing (S : Fespace2D F V nt nq) (i : ℤ) (c : FE2DCell F nt nq) (v : Fin nt → ℝ) :
    Fespace2D F V nt nq :=
  { S with feCell := S.feCell.set i.toNat { c with forcingAtQuad := v } }

/-- `fespace2d.py:553-609` (`get_forcing_function_values`); returns the column and the modified
space. -/
noncomputable def getForcingFunctionValues (S : Fespace2D (ℝ → ℝ → ℝ) V nt nq) (i : ℤ) :
    Except PyErr ((Fin nt → ℝ) × Fespace2D (ℝ → ℝ → ℝ) V nt nq) :=
  match S.cellAt i with
  | .error e => .error e
  | .ok c =>
    -- lines 590-605
    let fIntegral : Fin nt → ℝ := fun t =>
      (List.finRange nq).foldl (fun val q =>
        val + c.basisAtQuad t q *
          c.forcingFunction (c.quadActualCoordinates q).1 (c.quadActualCoordinates q).2) 0
    .ok (fIntegral, S.setForcing i c fIntegral)

/-- `fespace2d.py:611-641` (`get_forcing_function_values_vector`).  The vector-valued forcing function
is the list of its components, each acting entrywise on arrays. -/
noncomputable def getForcingFunctionValuesVector (S : Fespace2D (List (ℝ → ℝ → ℝ)) V nt nq) (i : ℤ)
    (component : ℤ) : Except PyErr ((Fin nt → ℝ) × Fespace2D (List (ℝ → ℝ → ℝ)) V nt nq) :=
  match S.cellAt i with
  | .error e => .error e
  | .ok c =>
    match pyIndex c.forcingFunction component with
    | .error e => .error e
    | .ok g =>
      let fValues : Fin nq → ℝ := fun q =>
        g (c.quadActualCoordinates q).1 (c.quadActualCoordinates q).2
      let fIntegral : Fin nt → ℝ := fun t => (List.finRange nq).foldl (fun val q =>
        val + c.basisAtQuad t q * fValues q) 0
      .ok (fIntegral, S.setForcing i c fIntegral)

/-- `fespace2d.py:643-688` (`get_sensor_data`).  `lhs k` is the outcome of `pyDOE.lhs(2, samples=k)`;
`int(num_points * 0.9)` is `⌊num_points * 0.9⌋`; `np.min` of an empty array raises `ValueError`. -/
noncomputable def getSensorData (S : Fespace2D F V nt nq) (exactSolution : ℝ → ℝ → ℝ)
    (numPoints : ℕ) (lhs : (k : ℕ) → Fin k → ℝ × ℝ) :
    Except PyErr (List (ℝ × ℝ) × List ℝ) :=
  match (S.meshPoints.map Prod.fst).min?, (S.meshPoints.map Prod.fst).max?,
      (S.meshPoints.map Prod.snd).min?, (S.meshPoints.map Prod.snd).max? with
  | some xMin, some xMax, some yMin, some yMax =>
    let numInternalPoints := ⌊(numPoints : ℝ) * 0.9⌋₊
    let points : List (ℝ × ℝ) := List.ofFn fun k : Fin numInternalPoints =>
      (xMin + (xMax - xMin) * (lhs numInternalPoints k).1,
       yMin + (yMax - yMin) * (lhs numInternalPoints k).2)
    .ok (points, points.map fun p => exactSolution p.1 p.2)
  | _, _, _, _ => .error .valueError

end Fespace2D

/-- `fespace2d.py:690-723` (`get_sensor_data_external`).  `file` are the first three columns of the lines of
the file, `none` the default `file_name=None` of the data handler, for which `pd.read_csv` raises `ValueError`;
by default `pd.read_csv` takes the first line for the names of the columns, and raises a `ValueError`
(`EmptyDataError`) if there is none.  `randint high` is the outcome of `np.random.randint(0, high, num_points)`,
which raises `ValueError` if `high` is 0.  The argument `exact_sol` is overwritten on line 711. -/
def getSensorDataExternal (_exactSol : ℝ → ℝ → ℝ) (numPoints : ℕ) (file : Option (List (ℝ × ℝ × ℝ)))
    (randint : ℕ → Fin numPoints → ℤ) : Except PyErr (List (ℝ × ℝ) × List ℝ) :=
  match file with
  | none => .error .valueError
  | some [] => .error .valueError
  | some (_ :: df) =>
    let x := df.map fun r => r.1
    let y := df.map fun r => r.2.1
    let exactSol := df.map fun r => r.2.2
    if x.length = 0 then .error .valueError
    else
      let indices := List.ofFn (randint x.length)
      match mapE (pyIndex x) indices, mapE (pyIndex y) indices, mapE (pyIndex exactSol) indices with
      | .ok xs, .ok ys, .ok es => .ok (xs.zip ys, es)
      | .error e, _, _ => .error e
      | _, .error e, _ => .error e
      | _, _, .error e => .error e

end FastVPINNs
