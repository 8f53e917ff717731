import Verif.Spec.GeometryObject
import Verif.Props.Geometry
import Verif.Props.ReadMesh
import Verif.Props.WriteVtk

/-! # C66, C67: the geometry object over its lifetime -/

namespace FastVPINNs

open Spec

/-! ## What the methods do to the attributes and the files -/

/-- The attributes after `generate_quad_mesh_internal`, whether or not it raises. -/
lemma generateInternal_object (env : MeshFiles) (o : GeometryObject) (files : Files) (x y : ℝ × ℝ)
    (nx ny nb : ℕ) (s : Fin 4 → Fin (nb / 4) → ℝ) :
    (o.generateInternal env files x y nx ny nb s).2.1 =
      { o with
        toGeometry2D := (generateQuadMeshInternal o.toGeometry2D x y nx ny nb s).geometry
        nCellsX := some nx, nCellsY := some ny
        mesh := some (.internal (generateQuadMeshInternal o.toGeometry2D x y nx ny nb s).meshPoints
          (reshapeFour (generateQuadMeshInternal o.toGeometry2D x y nx ny nb s).cells))
        cellPoints := some (generateQuadMeshInternal o.toGeometry2D x y nx ny nb s).cells
        bdDict := some ((generateQuadMeshInternal o.toGeometry2D x y nx ny nb s).bdDict.map
          fun e => (e.1, e.2.map fun p => [p.1, p.2])) } := by
  unfold GeometryObject.generateInternal
  dsimp only
  split_ifs
  · rfl
  · split <;> rfl

/-- The attributes fixed by the constructor. -/
def sameSetup (o o' : GeometryObject) : Prop :=
  o'.meshGenerationMethod = o.meshGenerationMethod ∧ o'.nTestPointsX = o.nTestPointsX ∧
    o'.nTestPointsY = o.nTestPointsY ∧ o'.isOptimized = o.isOptimized ∧
    o'.outputFolder = o.outputFolder

lemma exec_setup (env : MeshFiles) (c : GeometryCall) (w : GeometryObject × Files) :
    sameSetup w.1 (c.exec env w).2.1 := by
  obtain ⟨o, files⟩ := w
  cases c with
  | readMesh file level method lhs =>
    simp only [GeometryCall.exec, GeometryObject.readMesh]
    repeat' split
    all_goals exact ⟨rfl, rfl, rfl, rfl, rfl⟩
  | generateInternal =>
    simp only [GeometryCall.exec]
    rw [generateInternal_object]
    exact ⟨rfl, rfl, rfl, rfl, rfl⟩
  | generateVtk =>
    simp only [GeometryCall.exec]
    split <;> exact ⟨rfl, rfl, rfl, rfl, rfl⟩
  | getTestPoints =>
    simp only [GeometryCall.exec, GeometryObject.getTestPoints]
    repeat' split
    all_goals exact ⟨rfl, rfl, rfl, rfl, rfl⟩
  | writeVtk =>
    simp only [GeometryCall.exec, GeometryObject.writeVtk]
    repeat' split
    all_goals exact ⟨rfl, rfl, rfl, rfl, rfl⟩

lemma run_setup (env : MeshFiles) (cs : List GeometryCall) (w : GeometryObject × Files) :
    sameSetup w.1 (runCalls env w cs).1 := by
  induction cs generalizing w with
  | nil => exact ⟨rfl, rfl, rfl, rfl, rfl⟩
  | cons c cs ih =>
    have h1 := exec_setup env c w
    have h2 := ih (c.exec env w).2
    exact ⟨h2.1.trans h1.1, h2.2.1.trans h1.2.1, h2.2.2.1.trans h1.2.2.1,
      h2.2.2.2.1.trans h1.2.2.2.1, h2.2.2.2.2.trans h1.2.2.2.2⟩

lemma newGeometry_ok {mt method : String} {tx ty : ℕ} {folder : String} {opt : Bool}
    {o : GeometryObject} (h : newGeometry mt method tx ty folder opt = .ok o) :
    geometry2D mt method tx ty opt = .ok o.toGeometry2D ∧ o.meshGenerationMethod = method ∧
      o.nTestPointsX = tx ∧ o.nTestPointsY = ty ∧ o.isOptimized = opt ∧ o.outputFolder = folder ∧
      o.xLimits = none ∧ o.yLimits = none := by
  unfold newGeometry at h
  split at h
  · cases h
  rename_i g hg
  have h := Except.ok.inj h
  subst h
  have hg' := hg
  simp only [geometry2D] at hg'
  split_ifs at hg'
  have hg' := Except.ok.inj hg'
  subst hg'
  exact ⟨hg, rfl, rfl, rfl, rfl, rfl, rfl, rfl⟩

/-- On an external geometry, `read_mesh` either returns a mesh and rewrites `external.vtk`, or raises
and leaves all files alone. -/
lemma readMesh_external (env : MeshFiles) (o : GeometryObject) (files : Files) (file : String)
    (level : ℕ) (method : String) (lhs : ℕ → Fin (2 ^ level + 1) → ℝ × ℝ)
    (ho : o.meshGenerationMethod = "external") :
    (∃ m cells d, env.read files file = .ok m ∧
      readMesh (env.read files) file level method lhs = .ok (cells, d) ∧
      o.readMesh env files file level method lhs =
        (.ok (.mesh cells d),
          { o with meshFileName := some file, mesh := some (.read m), bdDict := some d,
                   cellPoints := some cells },
          writeFile files (env.join o.outputFolder "external.vtk") (env.vtk m))) ∨
    (∃ e, (o.readMesh env files file level method lhs).1 = .error e ∧
      readMesh (env.read files) file level method lhs = .error e ∧
      (o.readMesh env files file level method lhs).2.2 = files) := by
  unfold GeometryObject.readMesh
  by_cases hs : pathSuffix file.toList ≠ ".mesh".toList
  · right
    simp only [readMesh]
    rw [if_pos hs, if_pos hs]
    exact ⟨.valueError, rfl, rfl, rfl⟩
  rcases hm : env.read files file with e | m
  · right
    simp only [readMesh, hm]
    rw [if_neg hs, if_neg hs]
    exact ⟨e, rfl, rfl, rfl⟩
  · have hr : readMesh (env.read files) file level method lhs
        = readMesh (fun _ => .ok m) file level method lhs := by
      simp only [readMesh, hm]
    rw [hr]
    dsimp only
    rw [if_neg hs]
    rcases readMesh (fun _ => .ok m) file level method lhs with e | ⟨cells, d⟩
    · right
      exact ⟨e, rfl, rfl, rfl⟩
    · left
      refine ⟨m, cells, d, rfl, rfl, ?_⟩
      simp [GeometryObject.generateVtk, ho, hm]

lemma writeVtk_files (env : MeshFiles) (o : GeometryObject) (files : Files) {n m : ℕ}
    (solution : Fin n → Fin m → ℝ) (path name : String) (names : List String) (f : String)
    (hf : env.join path name ≠ f) :
    (o.writeVtk env files solution path name names).2.2 f = files f := by
  unfold GeometryObject.writeVtk FastVPINNs.writeVtk
  simp only
  split
  · rename_i heq
    split at heq
    · cases heq; rfl
    · split at heq
      · cases heq; rfl
      · cases heq
  · rename_i heq
    split at heq
    · cases heq
    · split at heq
      · cases heq
      · cases heq
        simp [hf.symm]

/-- A quiet run does not touch the file of an external geometry. -/
lemma quiet_files (env : MeshFiles) {w : GeometryObject × Files} {cs : List GeometryCall}
    {target : String} (hq : QuietRun env target w cs)
    (ho : w.1.meshGenerationMethod = "external") :
    (runCalls env w cs).2 target = w.2 target := by
  induction hq with
  | nil => rfl
  | @failedRead w cs file level method lhs e he h ih =>
    rw [runCalls, ih (by rw [(exec_setup env _ w).1, ho])]
    rcases readMesh_external env w.1 w.2 file level method lhs ho with
      ⟨m, cells, d, -, -, h'⟩ | ⟨e', -, -, h'⟩
    · simp only [GeometryCall.exec] at he
      rw [h'] at he
      cases he
    · simp only [GeometryCall.exec]
      rw [h']
  | @points w cs h ih =>
    rw [runCalls, ih (by rw [(exec_setup env _ w).1, ho])]
    simp only [GeometryCall.exec, GeometryObject.getTestPoints]
    split <;> rfl
  | @write w cs n m path name names sol hne h ih =>
    rw [runCalls, ih (by rw [(exec_setup env _ w).1, ho])]
    exact writeVtk_files env w.1 w.2 sol path name names target hne

/-- **C66 (external).**  Whatever was done with an external geometry before, after a successful
`read_mesh` and any further calls that neither read or generate a mesh successfully nor overwrite
`external.vtk`, `get_test_points` returns exactly the points of the mesh that was read, in file order;
the vertices of the cells that `read_mesh` returned are among them. -/
theorem C66_external_points (env : MeshFiles) (mt : String) (tx ty : ℕ)
    (folder : String) (opt : Bool) (o : GeometryObject)
    (hnew : newGeometry mt "external" tx ty folder opt = .ok o) (files : Files)
    (before after : List GeometryCall) (file : String) (level : ℕ) (method : String)
    (lhs : ℕ → Fin (2 ^ level + 1) → ℝ × ℝ) (v : GeometryValue) (w' : GeometryObject × Files)
    (hread : GeometryCall.exec env (.readMesh file level method lhs) (runCalls env (o, files) before)
      = (.ok v, w'))
    (hvtk : ∀ m, env.read (runCalls env (o, files) before).2 file = .ok m → VtkRoundTrip env m)
    (hq : QuietRun env (env.join folder "external.vtk") w' after) :
    ∃ m cells d, env.read (runCalls env (o, files) before).2 file = .ok m ∧
      readMesh (env.read (runCalls env (o, files) before).2) file level method lhs
        = .ok (cells, d) ∧
      v = .mesh cells d ∧
      (GeometryCall.exec env .getTestPoints (runCalls env w' after)).1
        = .ok (.points (planePoints m)) ∧
      ∀ c ∈ cells, ∀ k, c k ∈ planePoints m := by
  obtain ⟨-, hm, -, -, -, hf, -⟩ := newGeometry_ok hnew
  obtain ⟨s1, -, -, -, s5⟩ := run_setup env before (o, files)
  set w := runCalls env (o, files) before with hw
  have ho : w.1.meshGenerationMethod = "external" := s1.trans hm
  have hfold : w.1.outputFolder = folder := s5.trans hf
  rcases readMesh_external env w.1 w.2 file level method lhs ho with
    ⟨m, cells, d, h1, h2, h3⟩ | ⟨e, he, -⟩
  swap
  · simp only [GeometryCall.exec] at hread
    rw [hread] at he
    cases he
  simp only [GeometryCall.exec] at hread
  rw [h3] at hread
  obtain ⟨hv, hw'⟩ := Prod.mk.inj hread
  have hv := Except.ok.inj hv
  refine ⟨m, cells, d, h1, h2, hv.symm, ?_, ?_⟩
  · have hx : w'.1.meshGenerationMethod = "external" := by rw [← hw']; exact ho
    have hfile := quiet_files env hq hx
    obtain ⟨t1, -, -, -, t5⟩ := run_setup env after w'
    have hfold' : (runCalls env w' after).1.outputFolder = folder := by
      rw [t5, ← hw']; exact hfold
    have hcont : (runCalls env w' after).2 (env.join folder "external.vtk") = some (env.vtk m) := by
      rw [hfile, ← hw']
      simp [writeFile, hfold]
    obtain ⟨m', hp, hpp⟩ := hvtk m h1 (env.join folder "external.vtk")
    have hm' : (runCalls env w' after).1.meshGenerationMethod = "external" := t1.trans hx
    simp only [GeometryCall.exec, GeometryObject.getTestPoints, hfold', MeshFiles.read, hcont, hp,
      FastVPINNs.getTestPoints, hm']
    simp only [String.reduceEq, if_false, if_true, List.map_map]
    rw [← hpp]
    rfl
  · intro c hc k
    obtain ⟨-, m', edges, tags, rest, d0, hm', hcells, -⟩ := readMesh_ok h2
    obtain rfl : m = m' := Except.ok.inj (h1.symm.trans hm')
    obtain ⟨i, hi, rfl⟩ := List.getElem_of_mem hc
    obtain ⟨u, ⟨q, -, hu⟩, hcu⟩ := (readCells_spec hcells).2 i cells[i] (by simp [hi])
    obtain ⟨τ, hτ⟩ := sortCell_perm u
    rw [hcu, hτ]
    obtain ⟨p, hp, hup⟩ := hu (τ k)
    simp only [Function.comp_apply]
    rw [hup]
    simp only [planePoints, List.mem_map]
    exact ⟨p, List.mem_of_getElem? hp, rfl⟩

/-- **C66 (solution file).**  In the same situation `write_vtk` of a solution with as many columns as
names writes the header of the VTK file of the mesh that was read, followed by the fields: row `k` of
the solution belongs to point `k` of that mesh. -/
theorem C66_external_write (env : MeshFiles) (mt : String) (tx ty : ℕ)
    (folder : String) (opt : Bool) (o : GeometryObject)
    (hnew : newGeometry mt "external" tx ty folder opt = .ok o) (files : Files)
    (before after : List GeometryCall) (file : String) (level : ℕ) (method : String)
    (lhs : ℕ → Fin (2 ^ level + 1) → ℝ × ℝ) (v : GeometryValue) (w' : GeometryObject × Files)
    (hread : GeometryCall.exec env (.readMesh file level method lhs) (runCalls env (o, files) before)
      = (.ok v, w'))
    (hq : QuietRun env (env.join folder "external.vtk") w' after)
    {n k : ℕ} (solution : Fin n → Fin k → ℝ) (path name : String) (names : List String)
    (hk : k = names.length) :
    ∃ m pre body, env.read (runCalls env (o, files) before).2 file = .ok m ∧
      GeometryCall.exec env (.writeVtk solution path name names) (runCalls env w' after)
        = (.ok .none, (runCalls env w' after).1,
            Function.update (runCalls env w' after).2 (env.join path name) (some (pre ++ body))) ∧
      ((∃ l ∈ env.vtk m, AnnouncesPointData l) → IsHeader (env.vtk m) pre) ∧
      ∀ parse : String → ℝ, (∀ a b, parse (env.fmt (solution a b)) = solution a b) →
        ∀ fields, fields = readFields parse n body.length body →
          fields.length = k ∧
          ∀ i : Fin k, ∃ name, names[i.val]? = some name ∧
            fields[i.val]? = some (name.toList, List.ofFn fun a => solution a i) := by
  obtain ⟨-, hm, -, -, -, hf, -⟩ := newGeometry_ok hnew
  obtain ⟨s1, -, -, -, s5⟩ := run_setup env before (o, files)
  set w := runCalls env (o, files) before with hw
  have ho : w.1.meshGenerationMethod = "external" := s1.trans hm
  have hfold : w.1.outputFolder = folder := s5.trans hf
  rcases readMesh_external env w.1 w.2 file level method lhs ho with
    ⟨m, cells, d, h1, h2, h3⟩ | ⟨e, he, -⟩
  swap
  · simp only [GeometryCall.exec] at hread
    rw [hread] at he
    cases he
  simp only [GeometryCall.exec] at hread
  rw [h3] at hread
  obtain ⟨-, hw'⟩ := Prod.mk.inj hread
  have hx : w'.1.meshGenerationMethod = "external" := by rw [← hw']; exact ho
  have hfile := quiet_files env hq hx
  obtain ⟨t1, -, -, -, t5⟩ := run_setup env after w'
  have hfold' : (runCalls env w' after).1.outputFolder = folder := by
    rw [t5, ← hw']; exact hfold
  have hcont : (runCalls env w' after).2 (env.join folder "external.vtk") = some (env.vtk m) := by
    rw [hfile, ← hw']
    simp [writeFile, hfold]
  have hm' : (runCalls env w' after).1.meshGenerationMethod = "external" := t1.trans hx
  obtain ⟨pre, body, e1, e2, -, e4⟩ := (C11_write_vtk env.fmt (runCalls env w' after).2 _
    (env.join path name) solution names (env.vtk m) hcont).2 hk
  refine ⟨m, pre, body, h1, ?_, e2, e4⟩
  simp only [GeometryCall.exec, GeometryObject.writeVtk, hm', hfold', String.reduceEq, if_false]
  rw [e1]

/-! ### Internal geometries -/

/-- Only `generate_quad_mesh_internal` changes the limits. -/
lemma exec_limits (env : MeshFiles) (c : GeometryCall) (w : GeometryObject × Files)
    (hc : ¬ IsGenerate c) :
    (c.exec env w).2.1.xLimits = w.1.xLimits ∧ (c.exec env w).2.1.yLimits = w.1.yLimits := by
  obtain ⟨o, files⟩ := w
  cases c with
  | readMesh file level method lhs =>
    simp only [GeometryCall.exec, GeometryObject.readMesh]
    repeat' split
    all_goals exact ⟨rfl, rfl⟩
  | generateInternal => exact absurd trivial hc
  | generateVtk =>
    simp only [GeometryCall.exec]
    split <;> exact ⟨rfl, rfl⟩
  | getTestPoints =>
    simp only [GeometryCall.exec, GeometryObject.getTestPoints]
    repeat' split
    all_goals exact ⟨rfl, rfl⟩
  | writeVtk =>
    simp only [GeometryCall.exec, GeometryObject.writeVtk]
    repeat' split
    all_goals exact ⟨rfl, rfl⟩

lemma run_limits (env : MeshFiles) (cs : List GeometryCall) (w : GeometryObject × Files)
    (hc : ∀ c ∈ cs, ¬ IsGenerate c) :
    (runCalls env w cs).1.xLimits = w.1.xLimits ∧ (runCalls env w cs).1.yLimits = w.1.yLimits := by
  induction cs generalizing w with
  | nil => exact ⟨rfl, rfl⟩
  | cons c cs ih =>
    have h1 := exec_limits env c w (hc c (by simp))
    have h2 := ih (c.exec env w).2 fun c hc' => hc c (by simp [hc'])
    exact ⟨h2.1.trans h1.1, h2.2.trans h1.2⟩

lemma getTestPoints_congr {g g' : Geometry2D} (v v' : Except PyErr (List (ℝ × ℝ × ℝ)))
    (hm : g.meshGenerationMethod = "internal") (hm' : g'.meshGenerationMethod = "internal")
    (hx : g.nTestPointsX = g'.nTestPointsX) (hy : g.nTestPointsY = g'.nTestPointsY)
    (hxl : g.xLimits = g'.xLimits) (hyl : g.yLimits = g'.yLimits) :
    getTestPoints g v = getTestPoints g' v' := by
  obtain ⟨a, b, c, d, e, f, h⟩ := g
  obtain ⟨a', b', c', d', e', f', h'⟩ := g'
  simp only at hm hm' hx hy hxl hyl
  subst hm hm' hx hy hxl hyl
  rfl

/-- **C66 (internal).**  Whatever was done with an internal geometry before, after
`generate_quad_mesh_internal` on `x × y` (even if it raised while writing the VTK file) and any further
calls except `generate_quad_mesh_internal` — a successful `read_mesh` of some other mesh included —
`get_test_points` returns the tensor grid on `x × y`. -/
theorem C66_internal_points (env : MeshFiles) (mt : String) (tx ty : ℕ) (folder : String) (opt : Bool)
    (o : GeometryObject) (hnew : newGeometry mt "internal" tx ty folder opt = .ok o) (files : Files)
    (before after : List GeometryCall) (x y : ℝ × ℝ) (nx ny nb : ℕ) (s : Fin 4 → Fin (nb / 4) → ℝ)
    (hafter : ∀ c ∈ after, ¬ IsGenerate c) :
    ∃ pts, IsTensorGrid x y tx ty pts ∧
      (GeometryCall.exec env .getTestPoints (runCalls env (GeometryCall.exec env
        (.generateInternal x y nx ny nb s) (runCalls env (o, files) before)).2 after)).1
        = .ok (.points pts) := by
  obtain ⟨hg, hm, hx, hy, -⟩ := newGeometry_ok hnew
  obtain ⟨pts, h1, h2, h3, -⟩ := C05_test_points mt tx ty opt o.toGeometry2D hg x y nx ny nb s
    (.error .readError)
  refine ⟨pts, ⟨h2, h3⟩, ?_⟩
  have s1 := run_setup env before (o, files)
  set w1 := runCalls env (o, files) before with hw1
  have s2 := exec_setup env (.generateInternal x y nx ny nb s) w1
  have l2 : (GeometryCall.exec env (.generateInternal x y nx ny nb s) w1).2.1.xLimits = some x ∧
      (GeometryCall.exec env (.generateInternal x y nx ny nb s) w1).2.1.yLimits = some y := by
    simp only [GeometryCall.exec, generateInternal_object]
    exact ⟨rfl, rfl⟩
  set w2 := (GeometryCall.exec env (.generateInternal x y nx ny nb s) w1).2 with hw2
  have s3 := run_setup env after w2
  have l3 := run_limits env after w2 hafter
  set w3 := runCalls env w2 after with hw3
  have hm3 : w3.1.meshGenerationMethod = "internal" := by rw [s3.1, s2.1, s1.1]; exact hm
  have hx3 : w3.1.nTestPointsX = o.nTestPointsX := by rw [s3.2.1, s2.2.1, s1.2.1]
  have hy3 : w3.1.nTestPointsY = o.nTestPointsY := by rw [s3.2.2.1, s2.2.2.1, s1.2.2.1]
  simp only [GeometryCall.exec, GeometryObject.getTestPoints]
  rw [getTestPoints_congr (g := w3.1.toGeometry2D)
    (g' := (generateQuadMeshInternal o.toGeometry2D x y nx ny nb s).geometry) _ (.error .readError)
    hm3 hm hx3 hy3 (l3.1.trans l2.1) (l3.2.trans l2.2), h1]

/-- **C66 (reading into an internal geometry).**  `read_mesh` on an internal geometry for which no mesh
has been generated always raises; if the mesh itself could be read the exception is a `TypeError`
raised after the mesh, the cells and the boundary dictionary have been stored in the object. -/
theorem C66_internal_read (env : MeshFiles) (mt : String) (tx ty : ℕ) (folder : String) (opt : Bool)
    (o : GeometryObject) (hnew : newGeometry mt "internal" tx ty folder opt = .ok o) (files : Files)
    (before : List GeometryCall) (hbefore : ∀ c ∈ before, ¬ IsGenerate c) (file : String) (level : ℕ)
    (method : String) (lhs : ℕ → Fin (2 ^ level + 1) → ℝ × ℝ) (w : GeometryObject × Files)
    (hw : runCalls env (o, files) before = w) :
    (∀ e, readMesh (env.read w.2) file level method lhs = .error e →
      (GeometryCall.exec env (.readMesh file level method lhs) w).1 = .error e) ∧
    ∀ cells d, readMesh (env.read w.2) file level method lhs = .ok (cells, d) →
      (GeometryCall.exec env (.readMesh file level method lhs) w).1 = .error .typeError ∧
      (GeometryCall.exec env (.readMesh file level method lhs) w).2.1.cellPoints = some cells ∧
      (GeometryCall.exec env (.readMesh file level method lhs) w).2.1.bdDict = some d ∧
      (GeometryCall.exec env (.readMesh file level method lhs) w).2.2 = w.2 := by
  obtain ⟨hg, hm, hx, hy, -, -, hxl, hyl⟩ := newGeometry_ok hnew
  have s1 := run_setup env before (o, files)
  have l1 := run_limits env before (o, files) hbefore
  rw [hw] at s1 l1
  have hmw : w.1.meshGenerationMethod = "internal" := s1.1.trans hm
  have hxw : w.1.xLimits = none := l1.1.trans hxl
  simp only [GeometryCall.exec]
  unfold GeometryObject.readMesh
  by_cases hs : pathSuffix file.toList ≠ ".mesh".toList
  · simp only [readMesh]
    rw [if_pos hs, if_pos hs]
    refine ⟨fun e h => ?_, fun cells d h => by cases h⟩
    rw [Except.error.inj h]
  rcases hmr : env.read w.2 file with e | m
  · simp only [readMesh, hmr]
    rw [if_neg hs, if_neg hs]
    refine ⟨fun e h => ?_, fun cells d h => by cases h⟩
    rw [Except.error.inj h]
  · have hr : readMesh (env.read w.2) file level method lhs
        = readMesh (fun _ => .ok m) file level method lhs := by
      simp only [readMesh, hmr]
    rw [hr]
    dsimp only
    rw [if_neg hs]
    rcases readMesh (fun _ => .ok m) file level method lhs with e | ⟨cells, d⟩
    · refine ⟨fun e h => ?_, fun cells d h => by cases h⟩
      rw [Except.error.inj h]
    · refine ⟨fun e h => (by cases h), fun cells' d' h => ?_⟩
      obtain ⟨rfl, rfl⟩ := Prod.mk.inj (Except.ok.inj h)
      simp [GeometryObject.generateVtk, hmw, hxw]

/-- **C66 (new geometry).**  A new geometry holds the arguments of its constructor and no mesh: nothing can be
read off it before a mesh was read or generated. -/
theorem C66_new (mt method : String) (tx ty : ℕ) (folder : String) (opt : Bool) (o : GeometryObject)
    (hnew : newGeometry mt method tx ty folder opt = .ok o) :
    o.meshGenerationMethod = method ∧ o.nTestPointsX = tx ∧ o.nTestPointsY = ty ∧ o.outputFolder = folder ∧
    o.isOptimized = opt ∧ o.mesh = none ∧ o.cellPoints = none ∧ o.bdDict = none ∧ o.testPoints = none ∧
    o.meshFileName = none ∧ o.nCellsX = none ∧ o.nCellsY = none ∧ o.xLimits = none ∧ o.yLimits = none := by
  obtain ⟨-, h1, h2, h3, h4, h5, h6, h7⟩ := newGeometry_ok hnew
  unfold newGeometry at hnew
  split at hnew
  · cases hnew
  have hnew := Except.ok.inj hnew
  subst hnew
  exact ⟨h1, h2, h3, h5, h4, rfl, rfl, rfl, rfl, rfl, rfl, rfl, h6, h7⟩

/-- **C66 (files of an internal mesh).**  Whatever was done with an internal geometry before,
`generate_quad_mesh_internal` on `x × y` touches no file if the geometry is optimised.  Otherwise, for test
points in both directions, it writes to `internal.msh` the mesh that gmsh makes of the rectangle `x × y` with
the element sizes width by `n_test_points_x` and height by `n_test_points_y`, and the same mesh to
`internal.vtk`, and no other file. -/
theorem C66_internal_files (env : MeshFiles) (mt : String) (tx ty : ℕ) (folder : String) (opt : Bool)
    (o : GeometryObject) (hnew : newGeometry mt "internal" tx ty folder opt = .ok o) (files : Files)
    (before : List GeometryCall) (x y : ℝ × ℝ) (nx ny nb : ℕ) (s : Fin 4 → Fin (nb / 4) → ℝ)
    (w w' : GeometryObject × Files) (r : Except PyErr GeometryValue)
    (hw : runCalls env (o, files) before = w)
    (hw' : GeometryCall.exec env (.generateInternal x y nx ny nb s) w = (r, w')) :
    (opt = true → w'.2 = w.2 ∧ ∃ v, r = .ok v) ∧
    (opt = false → 0 < tx → 0 < ty → ∀ m,
      env.parseMsh (env.gmsh x y ((x.2 - x.1) / tx) ((y.2 - y.1) / ty)) = .ok m →
      env.join folder "internal.msh" ≠ env.join folder "internal.vtk" →
      (∃ v, r = .ok v) ∧
      w'.2 (env.join folder "internal.msh") = some (env.gmsh x y ((x.2 - x.1) / tx) ((y.2 - y.1) / ty)) ∧
      w'.2 (env.join folder "internal.vtk") = some (env.vtk m) ∧
      ∀ f, f ≠ env.join folder "internal.msh" → f ≠ env.join folder "internal.vtk" → w'.2 f = w.2 f) := by
  obtain ⟨-, h1, h2, h3, h4, h5, -, -⟩ := newGeometry_ok hnew
  obtain ⟨s1, s2, s3, s4, s5⟩ := run_setup env before (o, files)
  rw [hw] at s1 s2 s3 s4 s5
  dsimp only at s1 s2 s3 s4 s5
  rw [h1] at s1
  rw [h2] at s2
  rw [h3] at s3
  rw [h4] at s4
  rw [h5] at s5
  simp only [GeometryCall.exec, GeometryObject.generateInternal] at hw'
  have g1 : (generateQuadMeshInternal w.1.toGeometry2D x y nx ny nb s).geometry.isOptimized = opt := s4
  have g2 : (generateQuadMeshInternal w.1.toGeometry2D x y nx ny nb s).geometry.meshGenerationMethod
    = "internal" := s1
  have g3 : (generateQuadMeshInternal w.1.toGeometry2D x y nx ny nb s).geometry.nTestPointsX = tx := s2
  have g4 : (generateQuadMeshInternal w.1.toGeometry2D x y nx ny nb s).geometry.nTestPointsY = ty := s3
  have g5 : (generateQuadMeshInternal w.1.toGeometry2D x y nx ny nb s).geometry.xLimits = some x := rfl
  have g6 : (generateQuadMeshInternal w.1.toGeometry2D x y nx ny nb s).geometry.yLimits = some y := rfl
  refine ⟨fun ho => ?_, fun ho htx hty m hm hne => ?_⟩
  · rw [g1, ho] at hw'
    simp only [if_true, Prod.mk.injEq] at hw'
    obtain ⟨rfl, rfl⟩ := hw'
    exact ⟨rfl, _, rfl⟩
  · rw [g1, ho] at hw'
    simp only [Bool.false_eq_true, if_false, GeometryObject.generateVtk, g2, g3, g4, g5, g6, if_true, s5,
      if_neg (show ¬ (tx = 0 ∨ ty = 0) by omega), hm, Prod.mk.injEq] at hw'
    obtain ⟨rfl, rfl⟩ := hw'
    refine ⟨⟨_, rfl⟩, ?_, ?_, ?_⟩
    · simp [writeFile, hne]
    · simp [writeFile]
    · intro f hf1 hf2
      simp [writeFile, hf1, hf2]

/-- **C66 (attributes).**  What the methods store.  `get_test_points` stores the points it returns for internal
geometries and changes nothing else; `write_vtk` and `generate_vtk_for_test` change no attribute;
`generate_quad_mesh_internal` stores its limits and numbers of cells, and the cells and boundary points it
returns; `read_mesh` stores the name of the file, even if it raises, and the cells and boundary points it
returns. -/
theorem C66_attributes (env : MeshFiles) (w w' : GeometryObject × Files) (r : Except PyErr GeometryValue) :
    (GeometryCall.exec env .getTestPoints w = (r, w') → w'.2 = w.2 ∧
      (∀ pts, r = .ok (.points pts) → w.1.meshGenerationMethod = "internal" →
        w'.1 = { w.1 with testPoints := some pts }) ∧
      (w.1.meshGenerationMethod ≠ "internal" → w'.1 = w.1) ∧ ∀ e, r = .error e → w'.1 = w.1) ∧
    (∀ (n m : ℕ) (solution : Fin n → Fin m → ℝ) (path name : String) (names : List String),
      GeometryCall.exec env (.writeVtk solution path name names) w = (r, w') → w'.1 = w.1) ∧
    (GeometryCall.exec env .generateVtk w = (r, w') → w'.1 = w.1) ∧
    (∀ (x y : ℝ × ℝ) (nx ny nb : ℕ) (s : Fin 4 → Fin (nb / 4) → ℝ),
      GeometryCall.exec env (.generateInternal x y nx ny nb s) w = (r, w') →
      w'.1.xLimits = some x ∧ w'.1.yLimits = some y ∧ w'.1.nCellsX = some nx ∧ w'.1.nCellsY = some ny ∧
      w'.1.meshFileName = w.1.meshFileName ∧ w'.1.testPoints = w.1.testPoints ∧
      ∀ v, r = .ok v → ∃ cells d, v = .mesh cells d ∧ w'.1.cellPoints = some cells ∧ w'.1.bdDict = some d) ∧
    (∀ (file : String) (level : ℕ) (method : String) (lhs : ℕ → Fin (2 ^ level + 1) → ℝ × ℝ),
      GeometryCall.exec env (.readMesh file level method lhs) w = (r, w') →
      w'.1.meshFileName = some file ∧ w'.1.testPoints = w.1.testPoints ∧
      w'.1.nCellsX = w.1.nCellsX ∧ w'.1.nCellsY = w.1.nCellsY ∧
      ∀ v, r = .ok v → ∃ m cells d, env.read w.2 file = .ok m ∧ w'.1.mesh = some (.read m) ∧
        v = .mesh cells d ∧ w'.1.cellPoints = some cells ∧ w'.1.bdDict = some d) := by
  refine ⟨fun h => ?_, fun n m solution path name names h => ?_, fun h => ?_, fun x y nx ny nb s h => ?_,
    fun file level method lhs h => ?_⟩
  · simp only [GeometryCall.exec, GeometryObject.getTestPoints] at h
    split at h
    · simp only [Prod.mk.injEq] at h
      obtain ⟨rfl, rfl⟩ := h
      exact ⟨rfl, fun _ h => by simp at h, fun _ => rfl, fun _ _ => rfl⟩
    · simp only [Prod.mk.injEq] at h
      obtain ⟨rfl, rfl⟩ := h
      refine ⟨rfl, fun pts h hm => ?_, fun hm => by simp [hm], fun _ h => by simp at h⟩
      simp only [Except.ok.injEq, GeometryValue.points.injEq] at h
      simp [hm, h]
  · simp only [GeometryCall.exec, GeometryObject.writeVtk] at h
    split at h <;> · simp only [Prod.mk.injEq] at h; obtain ⟨-, rfl⟩ := h; rfl
  · simp only [GeometryCall.exec] at h
    split at h <;> · simp only [Prod.mk.injEq] at h; obtain ⟨-, rfl⟩ := h; rfl
  · simp only [GeometryCall.exec, GeometryObject.generateInternal] at h
    split at h
    · simp only [Prod.mk.injEq] at h
      obtain ⟨rfl, rfl⟩ := h
      exact ⟨rfl, rfl, rfl, rfl, rfl, rfl, fun v h => ⟨_, _, (Except.ok.inj h).symm, rfl, rfl⟩⟩
    · split at h
      · simp only [Prod.mk.injEq] at h
        obtain ⟨rfl, rfl⟩ := h
        exact ⟨rfl, rfl, rfl, rfl, rfl, rfl, fun v h => by simp at h⟩
      · simp only [Prod.mk.injEq] at h
        obtain ⟨rfl, rfl⟩ := h
        exact ⟨rfl, rfl, rfl, rfl, rfl, rfl, fun v h => ⟨_, _, (Except.ok.inj h).symm, rfl, rfl⟩⟩
  · simp only [GeometryCall.exec, GeometryObject.readMesh] at h
    split at h
    · simp only [Prod.mk.injEq] at h
      obtain ⟨rfl, rfl⟩ := h
      exact ⟨rfl, rfl, rfl, rfl, fun v h => by simp at h⟩
    · split at h
      · simp only [Prod.mk.injEq] at h
        obtain ⟨rfl, rfl⟩ := h
        exact ⟨rfl, rfl, rfl, rfl, fun v h => by simp at h⟩
      · rename_i m hm
        split at h
        · simp only [Prod.mk.injEq] at h
          obtain ⟨rfl, rfl⟩ := h
          exact ⟨rfl, rfl, rfl, rfl, fun v h => by simp at h⟩
        · split at h
          · simp only [Prod.mk.injEq] at h
            obtain ⟨rfl, rfl⟩ := h
            exact ⟨rfl, rfl, rfl, rfl, fun v h => by simp at h⟩
          · simp only [Prod.mk.injEq] at h
            obtain ⟨rfl, rfl⟩ := h
            exact ⟨rfl, rfl, rfl, rfl, fun v h => ⟨m, _, _, hm, rfl, (Except.ok.inj h).symm, rfl, rfl⟩⟩

/-- **C66 (failed conversion).**  If meshio cannot read the mesh that gmsh wrote for an internal geometry with
limits `x` and `y`, then `generate_vtk_for_test` raises this exception; `internal.msh` has been written and no
other file has changed. -/
theorem C66_vtk_failed (env : MeshFiles) (w : GeometryObject × Files)
    (hm : w.1.meshGenerationMethod = "internal") (x y : ℝ × ℝ) (hx : w.1.xLimits = some x)
    (hy : w.1.yLimits = some y) (htx : 0 < w.1.nTestPointsX) (hty : 0 < w.1.nTestPointsY) (e : PyErr)
    (he : env.parseMsh (env.gmsh x y ((x.2 - x.1) / w.1.nTestPointsX) ((y.2 - y.1) / w.1.nTestPointsY))
      = .error e) :
    GeometryCall.exec env .generateVtk w = (.error e, w.1, Function.update w.2
      (env.join w.1.outputFolder "internal.msh")
      (some (env.gmsh x y ((x.2 - x.1) / w.1.nTestPointsX) ((y.2 - y.1) / w.1.nTestPointsY)))) := by
  simp only [GeometryCall.exec, GeometryObject.generateVtk, hm, hx, hy, if_true,
    if_neg (show ¬ (w.1.nTestPointsX = 0 ∨ w.1.nTestPointsY = 0) by omega), he]
  refine congrArg (fun f => (_, _, f)) (funext fun f => ?_)
  simp [writeFile, Function.update_apply]

/-- **C66 (optimised geometries).**  On an internal geometry with `is_optimized=True` in a folder
without `internal.vtk`, after any calls that do not create this file in another way, every `write_vtk`
raises `FileNotFoundError` and writes nothing. -/
theorem C66_optimized_write (env : MeshFiles) (mt : String) (tx ty : ℕ) (folder : String)
    (o : GeometryObject) (hnew : newGeometry mt "internal" tx ty folder true = .ok o) (files : Files)
    (hfile : files (env.join folder "internal.vtk") = none) (before : List GeometryCall)
    (hbefore : ∀ c ∈ before, ¬ MayCreate env (env.join folder "internal.vtk") c)
    {n m : ℕ} (solution : Fin n → Fin m → ℝ) (path name : String) (names : List String)
    (w : GeometryObject × Files) (hw : runCalls env (o, files) before = w) :
    GeometryCall.exec env (.writeVtk solution path name names) w
      = (.error .fileNotFoundError, w) := by
  obtain ⟨hg, hm, -, -, hopt, hf, -⟩ := newGeometry_ok hnew
  have key : ∀ (cs : List GeometryCall) (v : GeometryObject × Files),
      v.1.isOptimized = true → v.2 (env.join folder "internal.vtk") = none →
      (∀ c ∈ cs, ¬ MayCreate env (env.join folder "internal.vtk") c) →
      (runCalls env v cs).2 (env.join folder "internal.vtk") = none := by
    intro cs
    induction cs with
    | nil => intro v _ h _; exact h
    | cons c cs ih =>
      intro v ho hv hcs
      refine ih (c.exec env v).2 (by rw [(exec_setup env c v).2.2.2.1, ho]) ?_
        fun c hc => hcs c (by simp [hc])
      have hc := hcs c (by simp)
      cases c with
      | readMesh => exact absurd trivial hc
      | generateVtk => exact absurd trivial hc
      | generateInternal x y nx ny nb s =>
        have : (GeometryCall.exec env (.generateInternal x y nx ny nb s) v).2.2 = v.2 := by
          simp only [GeometryCall.exec]
          unfold GeometryObject.generateInternal
          dsimp only
          split_ifs with h
          · rfl
          · exact absurd ho h
        rw [this, hv]
      | getTestPoints =>
        simp only [GeometryCall.exec, GeometryObject.getTestPoints]
        split <;> exact hv
      | writeVtk sol p q names =>
        exact (writeVtk_files env v.1 v.2 sol p q names _ hc).trans hv
  have h1 := key before (o, files) hopt hfile hbefore
  have s1 := run_setup env before (o, files)
  rw [hw] at h1 s1
  have hmw : w.1.meshGenerationMethod = "internal" := s1.1.trans hm
  have hfw : w.1.outputFolder = folder := s1.2.2.2.2.trans hf
  simp [GeometryCall.exec, GeometryObject.writeVtk, FastVPINNs.writeVtk, hmw, hfw, h1]

/-! ### A concrete run -/

/-- A file system with one mesh file, and meshio restricted to the demonstration mesh. -/
def demoFiles : Files := fun f =>
  if f = "meshes/demo.v2.mesh" then some ["MeshVersionFormatted 2"] else none

/-- The text of the VTK file contains its `POINT_DATA` line. -/
def demoEnv : MeshFiles where
  join := fun a b => a ++ "/" ++ b
  parse := fun _ content =>
    if content = ["MeshVersionFormatted 2"] ∨ content = ["POINTS 4 double\n", "POINT_DATA 4\n"] then
      .ok demoMesh else .error .readError
  vtk := fun _ => ["POINTS 4 double\n", "POINT_DATA 4\n"]
  gmsh := fun _ _ _ _ => ["$MeshFormat"]
  parseMsh := fun _ => .error .readError
  fmt := fun _ => "0\n"

/-- An external geometry: a failed attempt to generate a mesh, `read_mesh`, a failed `read_mesh` of a
missing file, `write_vtk`; the hypotheses of the `C66_external` theorems are met. -/
example (lhs : ℕ → Fin (2 ^ 2 + 1) → ℝ × ℝ) (s : Fin 4 → Fin (4 / 4) → ℝ) :
    ∃ o v w', newGeometry "quadrilateral" "external" 10 10 "out" false = .ok o ∧
      GeometryCall.exec demoEnv (.readMesh "meshes/demo.v2.mesh" 2 "uniform" lhs)
        (runCalls demoEnv (o, demoFiles) [.generateInternal (0, 1) (0, 1) 2 2 4 s]) = (.ok v, w') ∧
      (∀ m, demoEnv.read (runCalls demoEnv (o, demoFiles)
          [.generateInternal (0, 1) (0, 1) 2 2 4 s]).2 "meshes/demo.v2.mesh" = .ok m →
        VtkRoundTrip demoEnv m) ∧
      QuietRun demoEnv (demoEnv.join "out" "external.vtk") w'
        [.readMesh "missing.mesh" 2 "uniform" lhs,
         .writeVtk (fun (_ : Fin 4) (_ : Fin 1) => 0) "out" "prediction.vtk" ["Sol"]] := by
  obtain ⟨o, ho⟩ : ∃ o, newGeometry "quadrilateral" "external" 10 10 "out" false = .ok o :=
    ⟨_, rfl⟩
  obtain ⟨-, hm, -, -, hopt, hf, -⟩ := newGeometry_ok ho
  obtain ⟨w, hw⟩ : ∃ w, runCalls demoEnv (o, demoFiles) [.generateInternal (0, 1) (0, 1) 2 2 4 s] = w :=
    ⟨_, rfl⟩
  have s1 := run_setup demoEnv [.generateInternal (0, 1) (0, 1) 2 2 4 s] (o, demoFiles)
  have hname : o.meshFileName = none := by
    have := Except.ok.inj ho
    rw [← this]
  have hfiles : w.2 = demoFiles := by
    rw [← hw]
    simp only [runCalls, GeometryCall.exec]
    unfold GeometryObject.generateInternal
    dsimp only
    split_ifs with h
    · rfl
    · simp [GeometryObject.generateVtk, generateQuadMeshInternal, hm, hname, MeshFiles.read,
        demoFiles]
  rw [hw] at s1
  have hwm : w.1.meshGenerationMethod = "external" := s1.1.trans hm
  have hwf : w.1.outputFolder = "out" := s1.2.2.2.2.trans hf
  have hr : demoEnv.read w.2 "meshes/demo.v2.mesh" = .ok demoMesh := by
    simp [hfiles, MeshFiles.read, demoFiles, demoEnv]
  rcases readMesh_external demoEnv w.1 w.2 "meshes/demo.v2.mesh" 2 "uniform" lhs hwm with
    ⟨m, cells, d, h1, h2, h3⟩ | ⟨e, -, he, -⟩
  · refine ⟨o, .mesh cells d, _, ho, by rw [hw]; exact h3, ?_, ?_⟩
    · rw [hw]
      intro m' hm'
      rw [hr] at hm'
      obtain rfl := Except.ok.inj hm'
      exact fun path => ⟨demoMesh, by simp [demoEnv], rfl⟩
    · refine .failedRead (e := .readError) ?_ (.write (by simp [demoEnv]) (.nil _))
      simp only [GeometryCall.exec, GeometryObject.readMesh, MeshFiles.read, hfiles]
      rw [if_neg (by decide)]
      simp [writeFile, demoFiles, demoEnv, hwf]
  · have h := C10_sampling_method (demoEnv.read w.2) "meshes/demo.v2.mesh" 2 "uniform" lhs demoMesh
      demo_extension hr demoMesh_wellFormed
    obtain ⟨r, hr'⟩ := (h.1 (by simp [cellsOfType, demoMesh])).1.2 (Or.inl rfl)
    rw [he] at hr'
    cases hr'

/-- The files of an internal mesh after an earlier one. -/
example (s : Fin 4 → Fin (4 / 4) → ℝ) (o : GeometryObject)
    (ho : newGeometry "quadrilateral" "internal" 100 50 "out" false = .ok o) :
    (GeometryCall.exec { demoEnv with parseMsh := fun _ => .ok demoMesh } (.generateInternal (0, 2) (0, 1) 2 2 4 s)
      (runCalls { demoEnv with parseMsh := fun _ => .ok demoMesh } (o, demoFiles)
        [.generateInternal (0, 1) (0, 1) 2 2 4 s])).2.2
      (demoEnv.join "out" "internal.vtk") = some (demoEnv.vtk demoMesh) := by
  have h := C66_internal_files { demoEnv with parseMsh := fun _ => .ok demoMesh } "quadrilateral" 100 50 "out" false
    o ho demoFiles [.generateInternal (0, 1) (0, 1) 2 2 4 s] (0, 2) (0, 1) 2 2 4 s _ _ _ rfl rfl
  exact (h.2 rfl (by norm_num) (by norm_num) demoMesh rfl (by simp [demoEnv])).2.2.1

/-- A geometry whose `.msh` file cannot be read. -/
example (s : Fin 4 → Fin (4 / 4) → ℝ) (o : GeometryObject)
    (ho : newGeometry "quadrilateral" "internal" 100 50 "out" true = .ok o) :
    (GeometryCall.exec demoEnv .generateVtk
      (runCalls demoEnv (o, demoFiles) [.generateInternal (0, 1) (0, 1) 2 2 4 s])).1 = .error .readError := by
  obtain rfl := Except.ok.inj ho
  rw [C66_vtk_failed demoEnv _ rfl (0, 1) (0, 1) rfl rfl (show 0 < 100 by decide) (show 0 < 50 by decide)
    .readError rfl]

/-- An optimised internal geometry that generates a mesh twice. -/
example (s : Fin 4 → Fin (4 / 4) → ℝ) :
    demoFiles (demoEnv.join "out" "internal.vtk") = none ∧
    (∃ o, newGeometry "quadrilateral" "internal" 100 100 "out" true = .ok o) ∧
    ∀ c ∈ [GeometryCall.generateInternal (0, 1) (0, 1) 2 2 4 s, .getTestPoints,
      .generateInternal (0, 2) (0, 1) 3 2 4 s], ¬ MayCreate demoEnv (demoEnv.join "out" "internal.vtk") c := by
  refine ⟨by simp [demoFiles, demoEnv], ⟨_, rfl⟩, ?_⟩
  simp [MayCreate]

/-! ## C67 -/

lemma flatMap_ofFn_getElem? (cells : List Quad) (k : ℕ) (j : Fin 4) (c : Quad)
    (h : cells[k]? = some c) :
    (cells.flatMap fun c => List.ofFn c)[4 * k + j.val]? = some (c j) := by
  induction cells generalizing k with
  | nil => simp at h
  | cons a cells ih =>
    rw [List.flatMap_cons]
    cases k with
    | zero =>
      simp only [List.getElem?_cons_zero, Option.some.injEq] at h
      subst h
      rw [List.getElem?_append_left (by simp)]
      fin_cases j <;> rfl
    | succ k =>
      rw [List.getElem?_append_right (by simp; omega)]
      have := ih k (by simpa using h)
      simp only [List.length_ofFn]
      rw [← this]
      congr 1
      omega

/-- **C67** (partial).  After `generate_quad_mesh_internal`, vertex `j` of the `k`-th returned cell is
point number `4 k + j` of the stored mesh, and there are no other points.  Missing: the connectivity of
the stored mesh, which is wrong, see `C67_connectivity_wrong`. -/
theorem C67_stored_points_partial (env : MeshFiles) (o : GeometryObject) (files : Files)
    (x y : ℝ × ℝ) (nx ny nb : ℕ) (s : Fin 4 → Fin (nb / 4) → ℝ) (w : GeometryObject × Files)
    (hw : (GeometryCall.exec env (.generateInternal x y nx ny nb s) (o, files)).2 = w) :
    ∃ points quads cells, w.1.mesh = some (.internal points quads) ∧ w.1.cellPoints = some cells ∧
      cells.length = nx * ny ∧ points.length = 4 * (nx * ny) ∧
      ∀ (k : ℕ) (c : Quad), cells[k]? = some c → ∀ j : Fin 4, points[4 * k + j.val]? = some (c j) := by
  subst hw
  simp only [GeometryCall.exec]
  rw [generateInternal_object]
  refine ⟨_, _, _, rfl, rfl, ?_, ?_, ?_⟩
  · simp [generateQuadMeshInternal, internalCellsLoop_length]
  · simp only [generateQuadMeshInternal, List.length_flatMap, List.length_ofFn, List.map_const',
      List.sum_replicate, List.length_map, internalCellsLoop_length, smul_eq_mul]
    ring
  · intro k c hc j
    exact flatMap_ofFn_getElem? _ k j c hc

/-- **C67** (violation).  The mesh stored by `generate_quad_mesh_internal` never describes the cells it
returns: it has twice as many quadrilaterals, and the vertex "numbers" of the quadrilaterals `2 k` and `2 k + 1`
are the coordinates of the first two and of the last two vertices of cell `k`. -/
theorem C67_connectivity_wrong (env : MeshFiles) (o : GeometryObject) (files : Files)
    (x y : ℝ × ℝ) (nx ny nb : ℕ) (hnx : 0 < nx) (hny : 0 < ny) (s : Fin 4 → Fin (nb / 4) → ℝ)
    (w : GeometryObject × Files)
    (hw : (GeometryCall.exec env (.generateInternal x y nx ny nb s) (o, files)).2 = w) :
    ∃ points quads cells, w.1.mesh = some (.internal points quads) ∧ w.1.cellPoints = some cells ∧
      ¬ DescribesCells points quads cells ∧ quads.length = 2 * cells.length ∧
      ∀ (k : ℕ) (c : Quad), cells[k]? = some c →
        quads[2 * k]? = some [(c 0).1, (c 0).2, (c 1).1, (c 1).2] ∧
        quads[2 * k + 1]? = some [(c 2).1, (c 2).2, (c 3).1, (c 3).2] := by
  subst hw
  simp only [GeometryCall.exec]
  rw [generateInternal_object]
  have hlen : ∀ cells : List Quad, (reshapeFour cells).length = 2 * cells.length := by
    intro cells
    simp only [reshapeFour, List.length_flatMap, List.length_cons, List.length_nil, List.map_const',
      List.sum_replicate, smul_eq_mul]
    ring
  refine ⟨_, _, _, rfl, rfl, ?_, hlen _, ?_⟩
  · rintro ⟨h, -⟩
    rw [hlen] at h
    have h2 : (generateQuadMeshInternal o.toGeometry2D x y nx ny nb s).cells.length = nx * ny := by
      simp [generateQuadMeshInternal, internalCellsLoop_length]
    rw [h2] at h
    have := Nat.mul_pos hnx hny
    omega
  · intro k c hc
    generalize (generateQuadMeshInternal o.toGeometry2D x y nx ny nb s).cells = cells at hc
    induction cells generalizing k with
    | nil => simp at hc
    | cons a cells ih =>
      cases k with
      | zero =>
        simp only [List.getElem?_cons_zero, Option.some.injEq] at hc
        subst hc
        exact ⟨rfl, rfl⟩
      | succ k =>
        have := ih k (by simpa using hc)
        rw [← this.1, ← this.2, show 2 * (k + 1) = 2 * k + 1 + 1 by ring]
        exact ⟨rfl, rfl⟩

end FastVPINNs
