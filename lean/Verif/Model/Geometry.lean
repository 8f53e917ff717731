import Verif.Model.Numpy
import Verif.Model.Transform
import Mathlib.Analysis.SpecialFunctions.Complex.Arg
import Mathlib.Data.Fin.Tuple.Sort
import Mathlib.Data.Finset.Sort
import Mathlib.Order.Lex
import Mathlib.Data.List.Lex
import Mathlib.Data.List.Infix

/-!
# `fastvpinns/Geometry/geometry_2d.py`

The methods here are functions of the attributes they use; `Verif.Model.GeometryObject` puts them
together as an object with state in a file system.  Not modelled: plotting, printing.
-/

namespace FastVPINNs

/-- The attributes of `Geometry_2D` used by the modelled methods (`geometry_2d.py:63-93`). -/
structure Geometry2D where
  meshType : String
  meshGenerationMethod : String
  nTestPointsX : ℕ
  nTestPointsY : ℕ
  isOptimized : Bool
  /-- `None` until a mesh is generated. -/
  xLimits : Option (ℝ × ℝ)
  yLimits : Option (ℝ × ℝ)

/-- `geometry_2d.py:39-93` (`__init__`).  `output_folder` is only used to build file names.  The
returned message text is replaced by the name of the offending argument. -/
def geometry2D (meshType meshGenerationMethod : String) (nTestPointsX nTestPointsY : ℕ)
    (isOptimized : Bool) : Except (PyErr × String) Geometry2D :=
  if meshGenerationMethod ∉ ["internal", "external"] then
    .error (.valueError, "mesh_generation_method")
  else if meshType ∉ ["quadrilateral"] then .error (.valueError, "mesh_type")
  else .ok ⟨meshType, meshGenerationMethod, nTestPointsX, nTestPointsY, isOptimized, none, none⟩

/-! ### Vertices in angular order -/

/-- `np.arctan2(y, x)`: the angle of the point `(x, y)` in `(-π, π]`, and `0` at the origin. -/
noncomputable def arctan2 (y x : ℝ) : ℝ := Complex.arg ⟨x, y⟩

/-- `np.argsort(a)` (a stable sort for arrays of at most 16 entries). -/
noncomputable def argsort {n : ℕ} (a : Fin n → ℝ) : Fin n → Fin n := Tuple.sort a

/-- `geometry_2d.py:141-147` and the identical `281-287`: centroid, angles, re-indexing. -/
noncomputable def sortCell (cell : Quad) : Quad :=
  let centroid : ℝ × ℝ := ((∑ k, (cell k).1) / 4, (∑ k, (cell k).2) / 4)
  let angles : Fin 4 → ℝ := fun k =>
    arctan2 ((cell k).2 - centroid.2) ((cell k).1 - centroid.1)
  fun k => cell (argsort angles k)

/-! ### `generate_quad_mesh_internal` -/

/-- `geometry_2d.py:257-273`: the loop over the grid, `i` (x direction) outside. -/
noncomputable def internalCellsLoop (xLimits yLimits : ℝ × ℝ) (nCellsX nCellsY : ℕ) : List Quad :=
  let x := linspace xLimits.1 xLimits.2 (nCellsX + 1)
  let y := linspace yLimits.1 yLimits.2 (nCellsY + 1)
  (List.finRange nCellsX).flatMap fun i => (List.finRange nCellsY).map fun j =>
    ![(x i.castSucc, y j.castSucc), (x i.succ, y j.castSucc), (x i.succ, y j.succ),
      (x i.castSucc, y j.succ)]

/-- `geometry_2d.py:298-317` (`_temp_bd_func`); `sample` is what `lhs(1, num_pts)` returned. -/
def tempBdFunc {n : ℕ} (sample : Fin n → ℝ) (start stop : ℝ) : Fin n → ℝ :=
  fun k => sample k * (stop - start) + start

/-- A boundary dictionary: tag ↦ array of points, in insertion order. -/
abbrev BdDict := List (ℤ × List (ℝ × ℝ))

/-- `geometry_2d.py:294-337`: the boundary points.  `sample 0 .. sample 3` are the results of the four
calls of `lhs`, in call order. -/
def internalBoundary (xLimits yLimits : ℝ × ℝ) (numBoundaryPoints : ℕ)
    (sample : Fin 4 → Fin (numBoundaryPoints / 4) → ℝ) : BdDict :=
  [(1000, List.ofFn fun k => (tempBdFunc (sample 0) xLimits.1 xLimits.2 k, yLimits.1)),
   (1001, List.ofFn fun k => (xLimits.2, tempBdFunc (sample 1) yLimits.1 yLimits.2 k)),
   (1002, List.ofFn fun k => (tempBdFunc (sample 2) xLimits.1 xLimits.2 k, yLimits.2)),
   (1003, List.ofFn fun k => (xLimits.1, tempBdFunc (sample 3) yLimits.1 yLimits.2 k))]

/-- What `generate_quad_mesh_internal` leaves behind: the updated object, `self.mesh.points`
(`geometry_2d.py:290`), and the two returned values. -/
structure InternalMesh where
  geometry : Geometry2D
  meshPoints : List (ℝ × ℝ)
  cells : List Quad
  bdDict : BdDict

/-- `geometry_2d.py:226-346` (`generate_quad_mesh_internal`) for non-negative numbers of cells.
`int(num_boundary_points / 4)` is `ℕ` division (`numBoundaryPoints / 4`, line 296). -/
noncomputable def generateQuadMeshInternal (g : Geometry2D) (xLimits yLimits : ℝ × ℝ)
    (nCellsX nCellsY numBoundaryPoints : ℕ)
    (sample : Fin 4 → Fin (numBoundaryPoints / 4) → ℝ) : InternalMesh :=
  let cells := (internalCellsLoop xLimits yLimits nCellsX nCellsY).map sortCell
  { geometry := { g with xLimits := some xLimits, yLimits := some yLimits }
    meshPoints := cells.flatMap fun c => List.ofFn c
    cells := cells
    bdDict := internalBoundary xLimits yLimits numBoundaryPoints sample }

/-! ### `get_test_points` -/

/-- `geometry_2d.py:418-447` (`get_test_points`).  `externalVtk` is what `meshio.read` returns for the
points of `external.vtk`.  Subscripting `None` limits is a `TypeError`. -/
noncomputable def getTestPoints (g : Geometry2D) (externalVtk : Except PyErr (List (ℝ × ℝ × ℝ))) :
    Except PyErr (List (ℝ × ℝ)) :=
  if g.meshGenerationMethod = "internal" then
    match g.xLimits, g.yLimits with
    | some xl, some yl =>
      let x := linspace xl.1 xl.2 g.nTestPointsX
      let y := linspace yl.1 yl.2 g.nTestPointsY
      let xg := flatten (meshgridX x y)
      let yg := flatten (meshgridY x y)
      .ok (List.ofFn fun k => (xg k, yg k))
    | _, _ => .error .typeError
  else if g.meshGenerationMethod = "external" then
    match externalVtk with
    | .error e => .error e
    | .ok pts => .ok (pts.map fun p => (p.1, p.2.1))
  else .error .unboundLocalError

/-! ### `read_mesh` -/

/-- A mesh as returned by `meshio.read`: points with `2 + extra` coordinates, cell blocks in file
order (type, connectivity), and `cell_data["medit:ref"]`, one list of references per block. -/
structure MeshioMesh where
  extra : ℕ
  points : List (Fin (2 + extra) → ℝ)
  blocks : List (String × List (List ℕ))
  refs : List (List ℤ)

/-- `mesh.cells_dict[t]`: all blocks of type `t` concatenated, `KeyError` if there are none. -/
def MeshioMesh.cellsDict (m : MeshioMesh) (t : String) : Except PyErr (List (List ℕ)) :=
  if m.blocks.any (fun b => b.1 == t) then
    .ok ((m.blocks.filter fun b => b.1 == t).flatMap Prod.snd)
  else .error .keyError

/-- `mesh.points[k]`. -/
def MeshioMesh.point (m : MeshioMesh) (k : ℕ) : Except PyErr (Fin (2 + m.extra) → ℝ) :=
  match m.points[k]? with
  | some p => .ok p
  | none => .error .indexError

/-- The first two coordinates. -/
def MeshioMesh.xy {m : MeshioMesh} (p : Fin (2 + m.extra) → ℝ) : ℝ × ℝ :=
  (p ⟨0, by omega⟩, p ⟨1, by omega⟩)

/-- `geometry_2d.py:131, 135, 140-147`: the cells of the mesh with sorted vertices.  A connectivity
row that does not have four entries cannot occur in a block of type `quad`; it is reported as
`ValueError` here. -/
noncomputable def readCells (m : MeshioMesh) : Except PyErr (List Quad) :=
  match m.cellsDict "quad" with
  | .error e => .error e
  | .ok quads =>
    mapE (fun q =>
      match mapE m.point q with
      | .error e => .error e
      | .ok [a, b, c, d] =>
        .ok (sortCell ![MeshioMesh.xy a, MeshioMesh.xy b, MeshioMesh.xy c, MeshioMesh.xy d])
      | .ok _ => .error .valueError) quads

/-- `geometry_2d.py:153-156`: end points of the boundary edges. -/
def readEdges (m : MeshioMesh) :
    Except PyErr (List ((Fin (2 + m.extra) → ℝ) × (Fin (2 + m.extra) → ℝ))) :=
  match m.cellsDict "line" with
  | .error e => .error e
  | .ok lines =>
    mapE (fun l =>
      match mapE m.point l with
      | .error e => .error e
      | .ok [a, b] => .ok (a, b)
      | .ok _ => .error .valueError) lines

/-- `geometry_2d.py:177`: `np.linspace(p1, p2, n)` for vectors, as rows. -/
noncomputable def linspaceRows {d : ℕ} (p1 p2 : Fin d → ℝ) (n : ℕ) : List (List ℝ) :=
  List.ofFn fun k : Fin n => List.ofFn fun a => linspace (p1 a) (p2 a) n k

/-- `geometry_2d.py:180-182`: Latin hypercube points scaled to the coordinate ranges of the edge. -/
def lhsRows {n : ℕ} (sample : Fin n → ℝ × ℝ) (p1 p2 : ℝ × ℝ) : List (List ℝ) :=
  List.ofFn fun k =>
    [(sample k).1 * (p2.1 - p1.1) + p1.1, (sample k).2 * (p2.2 - p1.2) + p1.2]

/-- `geometry_2d.py:192-198`: insert the new rows under `tag`, or append them to the rows there. -/
def dictAppend {α : Type*} (d : List (ℤ × List α)) (tag : ℤ) (rows : List α) :
    List (ℤ × List α) :=
  if d.any (fun e => e.1 == tag) then
    d.map fun e => if e.1 = tag then (e.1, e.2 ++ rows) else e
  else d ++ [(tag, rows)]

/-- `geometry_2d.py:175-187`: the points sampled on one edge. -/
noncomputable def sampleEdge {extra : ℕ} (method : String) (level : ℕ)
    (lhs : Fin (2 ^ level + 1) → ℝ × ℝ) (p1 p2 : Fin (2 + extra) → ℝ) :
    Except PyErr (List (List ℝ)) :=
  if method = "uniform" then .ok (linspaceRows p1 p2 (2 ^ level + 1))
  else if method = "lhs" then
    .ok (lhsRows lhs (p1 ⟨0, by omega⟩, p1 ⟨1, by omega⟩) (p2 ⟨0, by omega⟩, p2 ⟨1, by omega⟩))
  else .error .valueError

/-- `geometry_2d.py:171-198`: the loop over the boundary edges, starting at edge number `i` with the
dictionary `d`.  `lhs i` is what the sampler returns for edge `i`. -/
noncomputable def boundaryLoop {extra : ℕ} (method : String) (level : ℕ)
    (lhs : ℕ → Fin (2 ^ level + 1) → ℝ × ℝ) (tags : List ℤ) :
    List ((Fin (2 + extra) → ℝ) × (Fin (2 + extra) → ℝ)) → ℕ → List (ℤ × List (List ℝ)) →
    Except PyErr (List (ℤ × List (List ℝ)))
  | [], _, d => .ok d
  | e :: es, i, d =>
    match sampleEdge method level (lhs i) e.1 e.2 with
    | .error err => .error err
    | .ok rows =>
      match tags[i]? with
      | none => .error .indexError
      | some tag => boundaryLoop method level lhs tags es (i + 1) (dictAppend d tag rows)

open Classical in
/-- `np.unique(val, axis=0)`: the distinct rows in lexicographic order. -/
noncomputable def npUnique (rows : List (List ℝ)) : List (List ℝ) :=
  rows.toFinset.sort (· ≤ ·)

/-- `Path(mesh_file).suffix` (CPython `pathlib`): of the last path component, the part from the last
dot, provided the dot is neither its first nor its last character.  On lists of characters. -/
def pathName (s : List Char) : List Char :=
  (((s.splitOn '/').filter fun c => c ≠ [] ∧ c ≠ ['.']).getLast?).getD []

/-- See `pathName`. -/
def pathSuffix (s : List Char) : List Char :=
  let name := pathName s
  let ext := (name.reverse.takeWhile (· ≠ '.')).reverse
  let stem := name.take (name.length - ext.length - 1)
  if stem = [] ∨ ext = [] then [] else '.' :: ext

/-- `geometry_2d.py:95-224` (`read_mesh`).  `read` is `meshio.read`; `refinement_level` is not used by
the source.  Line 160 (`reshape(-1, 3)` inside a print) raises `ValueError` when the number of
coordinates is not divisible by three.  Returns the cells and the boundary dictionary. -/
noncomputable def readMesh (read : String → Except PyErr MeshioMesh) (meshFile : String)
    (level : ℕ) (method : String) (lhs : ℕ → Fin (2 ^ level + 1) → ℝ × ℝ) :
    Except PyErr (List Quad × List (ℤ × List (List ℝ))) :=
  if pathSuffix meshFile.toList ≠ ".mesh".toList then .error .valueError
  else
    match read meshFile with
    | .error e => .error e
    | .ok m =>
      match readCells m with
      | .error e => .error e
      | .ok cells =>
        match readEdges m with
        | .error e => .error e
        | .ok edges =>
          if (edges.length * 2 * (2 + m.extra)) % 3 ≠ 0 then .error .valueError
          else
            match m.refs with
            | [] => .error .indexError
            | tags :: _ =>
              match boundaryLoop method level lhs tags edges 0 [] with
              | .error e => .error e
              | .ok d => .ok (cells, d.map fun e => (e.1, npUnique e.2))

/-! ### `write_vtk` -/

/-- Does the line contain `POINT_DATA`? (`geometry_2d.py:491`; the keyword has no white space, so
`strip` does not matter.) -/
def hasPointData (line : String) : Bool := decide ("POINT_DATA".toList <:+: line.toList)

/-- `geometry_2d.py:489-492`: the lines written by the first loop. -/
def vtkPrefix : List String → List String
  | [] => []
  | l :: ls => if hasPointData l then [l] else l :: vtkPrefix ls

/-- `geometry_2d.py:494-498`: the chunks written for column `i`; `fmt v` is the line `np.savetxt`
writes for `v`. -/
def vtkBlock (fmt : ℝ → String) (name : String) (col : List ℝ) : List String :=
  ["SCALARS " ++ name ++ " float\n", "LOOKUP_TABLE default\n"] ++ col.map fmt ++ ["\n"]

/-- `geometry_2d.py:449-498` (`write_vtk`).  A file is the list of its lines, `files` the file system.
`solution` has shape `(n, m)`.  `base` and `out` are the joined paths of lines 464-467 and 475
(`internal.vtk` or `external.vtk` in the output folder, and the output file). -/
def writeVtk (fmt : ℝ → String) (files : String → Option (List String)) (base out : String)
    {n m : ℕ} (solution : Fin n → Fin m → ℝ) (dataNames : List String) :
    Except PyErr Unit × (String → Option (List String)) :=
  match files base with
  | none => (.error .fileNotFoundError, files)
  | some data =>
    if h : m ≠ dataNames.length then (.error .valueError, files)
    else
      let blocks := (List.finRange m).flatMap fun i =>
        vtkBlock fmt (dataNames.get ⟨i.val, by omega⟩) (List.ofFn fun k => solution k i)
      (.ok (), fun f => if f = out then some (vtkPrefix data ++ blocks) else files f)

end FastVPINNs
