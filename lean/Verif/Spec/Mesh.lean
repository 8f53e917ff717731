import Verif.Model.Geometry

/-! # Specification: what a mesh file means -/

namespace FastVPINNs.Spec

/-- Connectivity rows of all cells of type `t`, in file order. -/
def cellsOfType (m : MeshioMesh) (t : String) : List (List ℕ) :=
  (m.blocks.filter fun b => decide (b.1 = t)).flatMap Prod.snd

/-- Boundary edge number `k` of the mesh runs from `p` to `q`. -/
def IsEdge (m : MeshioMesh) (k : ℕ) (p q : Fin (2 + m.extra) → ℝ) : Prop :=
  ∃ a b, (cellsOfType m "line")[k]? = some [a, b] ∧ m.points[a]? = some p ∧ m.points[b]? = some q

/-- The reference stored in the file for entry `k` of the first cell block. -/
def FirstBlockRef (m : MeshioMesh) (k : ℕ) (t : ℤ) : Prop :=
  ∃ tags, m.refs.head? = some tags ∧ tags[k]? = some t

/-- Quadrilateral number `k` of the mesh has the vertices `v 0, .., v 3` (in file order). -/
def IsQuad (m : MeshioMesh) (k : ℕ) (v : Fin 4 → ℝ × ℝ) : Prop :=
  ∃ q : Fin 4 → ℕ, (cellsOfType m "quad")[k]? = some (List.ofFn q) ∧
    ∀ j, ∃ p : Fin (2 + m.extra) → ℝ, m.points[q j]? = some p ∧ v j = (p ⟨0, by omega⟩, p ⟨1, by omega⟩)

/-- A mesh `read_mesh` can work with: three coordinates per point, at least one block of
quadrilaterals and one of lines, all vertex numbers valid, and a reference for every line. -/
structure WellFormed (m : MeshioMesh) : Prop where
  dim : m.extra = 1
  hasQuad : ∃ b ∈ m.blocks, b.1 = "quad"
  hasLine : ∃ b ∈ m.blocks, b.1 = "line"
  quads : ∀ q ∈ cellsOfType m "quad", q.length = 4 ∧ ∀ a ∈ q, a < m.points.length
  lines : ∀ l ∈ cellsOfType m "line", l.length = 2 ∧ ∀ a ∈ l, a < m.points.length
  refs : ∃ tags rest, m.refs = tags :: rest ∧ (cellsOfType m "line").length ≤ tags.length

/-- The elements of `l` in order of first occurrence. -/
def firstOccurrences (l : List ℤ) : List ℤ := l.reverse.dedup.reverse

/-- `r` is one of the `N + 1` evenly spaced points from `p` to `q`. -/
def IsUniformSample {d : ℕ} (p q : Fin d → ℝ) (N : ℕ) (r : List ℝ) : Prop :=
  ∃ j ≤ N, r = List.ofFn fun a => p a + (j / N : ℝ) * (q a - p a)

/-- `n` points of the unit square of which every coordinate strip `[i/n, (i+1)/n)` contains exactly
one, in each of the two coordinates. -/
def IsLatinHypercube {n : ℕ} (s : Fin n → ℝ × ℝ) : Prop :=
  ∃ π ρ : Equiv.Perm (Fin n), ∀ k,
    ((π k : ℝ) / n ≤ (s k).1 ∧ (s k).1 < ((π k : ℝ) + 1) / n) ∧
    ((ρ k : ℝ) / n ≤ (s k).2 ∧ (s k).2 < ((ρ k : ℝ) + 1) / n)

/-- The file name is `….mesh` with a non-empty stem (directories separated by `/`; empty components
and `.` do not count). -/
def HasMeshExtension (file : String) : Prop :=
  ∃ stem, stem ≠ [] ∧
    ((file.toList.splitOn '/').filter fun c => c ≠ [] ∧ c ≠ ['.']).getLast?
      = some (stem ++ ".mesh".toList)

/-- The reference (`medit:ref`) of the `k`-th edge of the file: the references of the `line` blocks, in
file order. -/
def LineRef (m : MeshioMesh) (k : ℕ) (t : ℤ) : Prop :=
  ((m.blocks.zip m.refs).flatMap fun b => if b.1.1 = "line" then b.2 else [])[k]? = some t

/-- Every block has one reference per cell. -/
def RefsMatch (m : MeshioMesh) : Prop :=
  List.Forall₂ (fun (b : String × List (List ℕ)) (r : List ℤ) => b.2.length = r.length) m.blocks m.refs

end FastVPINNs.Spec
