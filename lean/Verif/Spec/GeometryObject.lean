import Verif.Model.GeometryObject
import Verif.Spec.Rectangle

/-! # Specification: what the test points of a geometry should be -/

namespace FastVPINNs.Spec

/-- The points of a mesh in the plane, in file order. -/
def planePoints (m : MeshioMesh) : List (ℝ × ℝ) :=
  m.points.map fun p => (p ⟨0, by omega⟩, p ⟨1, by omega⟩)

/-- Reading the VTK file meshio writes for `m` gives back the plane coordinates of the points, in
order. -/
def VtkRoundTrip (env : MeshFiles) (m : MeshioMesh) : Prop :=
  ∀ path, ∃ m', env.parse path (env.vtk m) = .ok m' ∧ planePoints m' = planePoints m

/-- A sequence of calls none of which reads a mesh successfully, generates a mesh or a VTK file for the
test points, or writes a solution to the file `target`. -/
inductive QuietRun (env : MeshFiles) (target : String) :
    GeometryObject × Files → List GeometryCall → Prop
  | nil (w) : QuietRun env target w []
  | failedRead {w cs file level method lhs e}
      (he : (GeometryCall.exec env (.readMesh file level method lhs) w).1 = .error e)
      (h : QuietRun env target (GeometryCall.exec env (.readMesh file level method lhs) w).2 cs) :
      QuietRun env target w (.readMesh file level method lhs :: cs)
  | points {w cs}
      (h : QuietRun env target (GeometryCall.exec env .getTestPoints w).2 cs) :
      QuietRun env target w (.getTestPoints :: cs)
  | write {w cs n m path name names} {solution : Fin n → Fin m → ℝ}
      (ho : env.join path name ≠ target)
      (h : QuietRun env target (GeometryCall.exec env (.writeVtk solution path name names) w).2 cs) :
      QuietRun env target w (.writeVtk solution path name names :: cs)

/-- The call generates an internal mesh. -/
def IsGenerate : GeometryCall → Prop
  | .generateInternal .. => True
  | _ => False

/-- The call can create a VTK file for the test points even on an optimised geometry, or writes to
`target`. -/
def MayCreate (env : MeshFiles) (target : String) : GeometryCall → Prop
  | .readMesh .. => True
  | .generateVtk => True
  | .writeVtk _ path name _ => env.join path name = target
  | _ => False

/-- The tensor grid with `nx` by `ny` points on `[x.1, x.2] × [y.1, y.2]`, `x` fastest. -/
def IsTensorGrid (x y : ℝ × ℝ) (nx ny : ℕ) (pts : List (ℝ × ℝ)) : Prop :=
  pts.length = nx * ny ∧ ∀ i < nx, ∀ j < ny, pts[nx * j + i]?
    = some (gridLine x.1 x.2 (nx - 1) i, gridLine y.1 y.2 (ny - 1) j)

/-- The mesh with the given points and connectivity consists of the given cells. -/
def DescribesCells (points : List (ℝ × ℝ)) (quads : List (List ℝ)) (cells : List Quad) : Prop :=
  quads.length = cells.length ∧
  ∀ (k : ℕ) (row : List ℝ) (c : Quad), quads[k]? = some row → cells[k]? = some c →
    ∀ j : Fin 4, ∃ v : ℕ, row[j.val]? = some (v : ℝ) ∧ points[v]? = some (c j)

end FastVPINNs.Spec
