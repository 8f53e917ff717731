import Verif.Model.Geometry

/-!
# `fastvpinns/Geometry/geometry_2d.py`: `Geometry_2D` as an object in a file system

`Verif.Model.Geometry` models the values computed by the methods; here each method is a transition of
the attributes of the object and of the files, including what is left behind when it raises.
Files are lists of lines.  The formats are not modelled: writing and reading them is given by the
parameters `MeshFiles`.  Not modelled: gmsh's own global state, printing, permissions.
-/

namespace FastVPINNs

/-- File system: path ↦ lines. -/
abbrev Files := String → Option (List String)

/-- The file operations of `pathlib`, meshio and gmsh used by `Geometry_2D`. -/
structure MeshFiles where
  /-- `str(Path(folder) / name)`. -/
  join : String → String → String
  /-- `meshio.read(path)` given the content of the file. -/
  parse : String → List String → Except PyErr MeshioMesh
  /-- The lines written by `meshio.vtk.write(.., mesh, binary=False, fmt_version="4.2")`. -/
  vtk : MeshioMesh → List String
  /-- The `.msh` file gmsh writes for the rectangle `xLimits × yLimits` with the given mesh sizes
  (`geometry_2d.py:367-396`). -/
  gmsh : (xLimits yLimits : ℝ × ℝ) → (sizeX sizeY : ℝ) → List String
  /-- `meshio.gmsh.read`. -/
  parseMsh : List String → Except PyErr MeshioMesh
  /-- The line `np.savetxt` writes for a number. -/
  fmt : ℝ → String

/-- `meshio.read(path)`; a missing file is a `ReadError`. -/
def MeshFiles.read (env : MeshFiles) (files : Files) (path : String) : Except PyErr MeshioMesh :=
  match files path with
  | none => .error .readError
  | some content => env.parse path content

/-- `self.mesh`: the mesh read by `read_mesh` (`geometry_2d.py:127`), or the `meshio.Mesh` built by
`generate_quad_mesh_internal` (`geometry_2d.py:290`), whose "connectivity" is an array of reals. -/
inductive StoredMesh
  | read (m : MeshioMesh)
  | internal (points : List (ℝ × ℝ)) (quads : List (List ℝ))

/-- All attributes of `Geometry_2D` (`geometry_2d.py:63-93`), `none` standing for `None`. -/
structure GeometryObject extends Geometry2D where
  outputFolder : String
  nCellsX : Option ℕ
  nCellsY : Option ℕ
  meshFileName : Option String
  mesh : Option StoredMesh
  bdDict : Option (List (ℤ × List (List ℝ)))
  cellPoints : Option (List Quad)
  testPoints : Option (List (ℝ × ℝ))

/-- `geometry_2d.py:39-93` (`__init__`) with all attributes. -/
def newGeometry (meshType meshGenerationMethod : String) (nTestPointsX nTestPointsY : ℕ)
    (outputFolder : String) (isOptimized : Bool) : Except (PyErr × String) GeometryObject :=
  match geometry2D meshType meshGenerationMethod nTestPointsX nTestPointsY isOptimized with
  | .error e => .error e
  | .ok g =>
    .ok { toGeometry2D := g
          outputFolder := outputFolder
          nCellsX := none, nCellsY := none, meshFileName := none, mesh := none
          bdDict := none, cellPoints := none, testPoints := none }

/-- Write a file. -/
def writeFile (files : Files) (path : String) (content : List String) : Files :=
  fun f => if f = path then some content else files f

/-- `geometry_2d.py:348-416` (`generate_vtk_for_test`): the outcome and the files.  `str(None)` is
`"None"` (line 413).  Dividing by zero test points is a `ZeroDivisionError` (lines 363-364). -/
noncomputable def GeometryObject.generateVtk (env : MeshFiles) (o : GeometryObject) (files : Files) :
    Except PyErr Unit × Files :=
  if o.meshGenerationMethod = "internal" then
    match o.xLimits, o.yLimits with
    | some xl, some yl =>
      let xRange := xl.2 - xl.1
      let yRange := yl.2 - yl.1
      if o.nTestPointsX = 0 ∨ o.nTestPointsY = 0 then (.error .zeroDivisionError, files)
      else
        let msh := env.gmsh xl yl (xRange / o.nTestPointsX) (yRange / o.nTestPointsY)
        let files := writeFile files (env.join o.outputFolder "internal.msh") msh
        match env.parseMsh msh with
        | .error e => (.error e, files)
        | .ok m => (.ok (), writeFile files (env.join o.outputFolder "internal.vtk") (env.vtk m))
    | _, _ => (.error .typeError, files)
  else if o.meshGenerationMethod = "external" then
    match env.read files (o.meshFileName.getD "None") with
    | .error e => (.error e, files)
    | .ok m => (.ok (), writeFile files (env.join o.outputFolder "external.vtk") (env.vtk m))
  else (.ok (), files)

/-- What a method of `Geometry_2D` returns. -/
inductive GeometryValue
  | mesh (cells : List Quad) (bdDict : List (ℤ × List (List ℝ)))
  | points (pts : List (ℝ × ℝ))
  | none

/-- `geometry_2d.py:95-224` (`read_mesh`): attributes are set as the method proceeds, so those set
before an exception stay. -/
noncomputable def GeometryObject.readMesh (env : MeshFiles) (o : GeometryObject) (files : Files)
    (meshFile : String) (level : ℕ) (method : String) (lhs : ℕ → Fin (2 ^ level + 1) → ℝ × ℝ) :
    Except PyErr GeometryValue × GeometryObject × Files :=
  let o := { o with meshFileName := some meshFile }
  if pathSuffix meshFile.toList ≠ ".mesh".toList then (.error .valueError, o, files)
  else
    match env.read files meshFile with
    | .error e => (.error e, o, files)
    | .ok m =>
      let o := { o with mesh := some (.read m) }
      match FastVPINNs.readMesh (fun _ => .ok m) meshFile level method lhs with
      | .error e => (.error e, o, files)
      | .ok (cells, d) =>
        let o := { o with bdDict := some d, cellPoints := some cells }
        match o.generateVtk env files with
        | (.error e, files) => (.error e, o, files)
        | (.ok _, files) => (.ok (.mesh cells d), o, files)

/-- `cells.reshape(-1, 4)` of the `(n, 4, 2)` array of cells (`geometry_2d.py:290`): each cell gives
two rows of four coordinates. -/
def reshapeFour (cells : List Quad) : List (List ℝ) :=
  cells.flatMap fun c =>
    [[(c 0).1, (c 0).2, (c 1).1, (c 1).2], [(c 2).1, (c 2).2, (c 3).1, (c 3).2]]

/-- `geometry_2d.py:226-346` (`generate_quad_mesh_internal`). -/
noncomputable def GeometryObject.generateInternal (env : MeshFiles) (o : GeometryObject)
    (files : Files) (xLimits yLimits : ℝ × ℝ) (nCellsX nCellsY numBoundaryPoints : ℕ)
    (sample : Fin 4 → Fin (numBoundaryPoints / 4) → ℝ) :
    Except PyErr GeometryValue × GeometryObject × Files :=
  let im := generateQuadMeshInternal o.toGeometry2D xLimits yLimits nCellsX nCellsY
    numBoundaryPoints sample
  let d := im.bdDict.map fun e => (e.1, e.2.map fun p => [p.1, p.2])
  let o : GeometryObject :=
    { o with
      toGeometry2D := im.geometry
      nCellsX := some nCellsX, nCellsY := some nCellsY
      mesh := some (.internal im.meshPoints (reshapeFour im.cells))
      cellPoints := some im.cells, bdDict := some d }
  if o.isOptimized then (.ok (.mesh im.cells d), o, files)
  else
    match o.generateVtk env files with
    | (.error e, files) => (.error e, o, files)
    | (.ok _, files) => (.ok (.mesh im.cells d), o, files)

/-- `geometry_2d.py:418-447` (`get_test_points`); only the internal branch stores the points.
Coordinates beyond the second are dropped (line 447), so their value in the argument of
`getTestPoints` is irrelevant. -/
noncomputable def GeometryObject.getTestPoints (env : MeshFiles) (o : GeometryObject)
    (files : Files) : Except PyErr GeometryValue × GeometryObject × Files :=
  let vtk : Except PyErr (List (ℝ × ℝ × ℝ)) :=
    match env.read files (env.join o.outputFolder "external.vtk") with
    | .error e => .error e
    | .ok m => .ok (m.points.map fun p => ((MeshioMesh.xy p).1, (MeshioMesh.xy p).2, 0))
  match FastVPINNs.getTestPoints o.toGeometry2D vtk with
  | .error e => (.error e, o, files)
  | .ok pts =>
    (.ok (.points pts),
      if o.meshGenerationMethod = "internal" then { o with testPoints := some pts } else o, files)

/-- `geometry_2d.py:449-498` (`write_vtk`). -/
def GeometryObject.writeVtk (env : MeshFiles) (o : GeometryObject) (files : Files) {n m : ℕ}
    (solution : Fin n → Fin m → ℝ) (outputPath filename : String) (dataNames : List String) :
    Except PyErr GeometryValue × GeometryObject × Files :=
  let base :=
    if o.meshGenerationMethod = "internal" then env.join o.outputFolder "internal.vtk"
    else env.join o.outputFolder "external.vtk"
  match FastVPINNs.writeVtk env.fmt files base (env.join outputPath filename) solution dataNames with
  | (.error e, files) => (.error e, o, files)
  | (.ok _, files) => (.ok .none, o, files)

/-- A call of a public method, with the random numbers it will draw. -/
inductive GeometryCall
  | readMesh (meshFile : String) (level : ℕ) (method : String)
      (lhs : ℕ → Fin (2 ^ level + 1) → ℝ × ℝ)
  | generateInternal (xLimits yLimits : ℝ × ℝ) (nCellsX nCellsY numBoundaryPoints : ℕ)
      (sample : Fin 4 → Fin (numBoundaryPoints / 4) → ℝ)
  | generateVtk
  | getTestPoints
  | writeVtk {n m : ℕ} (solution : Fin n → Fin m → ℝ) (outputPath filename : String)
      (dataNames : List String)

/-- One method call: outcome, object and files afterwards. -/
noncomputable def GeometryCall.exec (env : MeshFiles) (c : GeometryCall) (w : GeometryObject × Files) :
    Except PyErr GeometryValue × GeometryObject × Files :=
  match c with
  | .readMesh file level method lhs => w.1.readMesh env w.2 file level method lhs
  | .generateInternal xl yl nx ny nb sample => w.1.generateInternal env w.2 xl yl nx ny nb sample
  | .generateVtk =>
    match w.1.generateVtk env w.2 with
    | (.error e, files) => (.error e, w.1, files)
    | (.ok _, files) => (.ok .none, w.1, files)
  | .getTestPoints => w.1.getTestPoints env w.2
  | .writeVtk solution path name names => w.1.writeVtk env w.2 solution path name names

/-- The object and the files after a sequence of calls; exceptions are caught by the caller. -/
noncomputable def runCalls (env : MeshFiles) (w : GeometryObject × Files) :
    List GeometryCall → GeometryObject × Files
  | [] => w
  | c :: cs => runCalls env (c.exec env w).2 cs

end FastVPINNs
