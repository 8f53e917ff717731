import Verif.Props.DriverGear
import Verif.Props.DriverDomainGrid

/-! # C76, C79, C80: the mesh generation method with which the scripts finish

The scripts for forward problems on the rectangle generate a mesh and those on mesh files read one, whatever the
configuration says about the mesh generation method. -/

namespace FastVPINNs

open Spec

lemma newGeometry_method {mt method : String} {tx ty : ℕ} {folder : String} {opt : Bool} {o : GeometryObject}
    (h : newGeometry mt method tx ty folder opt = .ok o) : method = "internal" ∨ method = "external" := by
  have h1 := (newGeometry_ok h).1
  unfold geometry2D at h1
  split at h1
  · exact absurd h1 (by simp)
  rename_i hm
  simpa [or_iff_not_imp_left] using hm

lemma prepareUniform_method (mc : Machine) (cfg : ForwardConfig) (pb : Problem) (layerDims : List ℕ)
    (lrFn : List (String × PyVal) → Except PyErr LearningRate) (sample : Fin 4 → Fin (cfg.nBoundaryPoints / 4) → ℝ)
    (files : Files) (hnone : ∀ m, mc.env.read files "None" ≠ .ok m) (P : Prepared)
    (h : prepareUniform mc cfg pb layerDims lrFn sample files = .ok P) : cfg.meshGenerationMethod = "internal" := by
  unfold prepareUniform at h
  split at h
  · exact absurd h (by simp)
  split at h
  · exact absurd h (by simp)
  rename_i o ho
  refine (newGeometry_method ho).resolve_right fun hc => ?_
  obtain ⟨h1, -, -, -, h5, -, -, -, -, h6, -⟩ := C66_new _ _ _ _ _ _ _ ho
  rw [hc] at h1
  cases hr : mc.env.read files "None" with
  | ok m => exact hnone m hr
  | error e =>
    simp [GeometryObject.generateInternal, GeometryObject.generateVtk, generateQuadMeshInternal, h1, h5, h6, hr] at h

lemma prepareExternal_method (mc : Machine) (cfg : ForwardConfig) (pb : Problem) (layerDims : List ℕ)
    (lhs : ℕ → Fin (2 ^ cfg.boundaryRefinementLevel + 1) → ℝ × ℝ) (files : Files) (P : Prepared)
    (h : prepareExternal mc cfg pb layerDims lhs files = .ok P) : cfg.meshGenerationMethod = "external" := by
  unfold prepareExternal at h
  split at h
  · exact absurd h (by simp)
  split at h
  · exact absurd h (by simp)
  rename_i o ho
  refine (newGeometry_method ho).resolve_left fun hc => ?_
  obtain ⟨h1, -, -, -, -, -, -, -, -, -, -, -, hx, -⟩ := C66_new _ _ _ _ _ _ _ ho
  rw [hc] at h1
  split at h
  · exact absurd h (by simp)
  · rename_i cells bd o' files' hr
    unfold GeometryObject.readMesh at hr
    dsimp only at hr
    repeat (split at hr; · exact absurd hr (by simp))
    rename_i hv
    unfold GeometryObject.generateVtk at hv
    rw [if_pos h1] at hv
    simp only [hx] at hv
    exact absurd hv (by simp)
  · exact absurd h (by simp)

/-- **C76** (mesh generation method).  The scripts on the rectangle finish only with the mesh generation method
`internal`, as there is no mesh file called `None`; the scripts on mesh files finish only with `external`.  So the
theorems on these scripts cover every run that finishes. -/
theorem C76_method (mc : Machine) (pb : Problem) (cfg : ForwardConfig) (layerDims : ForwardConfig → List ℕ)
    (sample : Fin 4 → Fin (cfg.nBoundaryPoints / 4) → ℝ)
    (lhs : ℕ → Fin (2 ^ cfg.boundaryRefinementLevel + 1) → ℝ × ℝ) (θ : Weights) (files : Files) (R : RunResult) :
    ((∀ m, mc.env.read files "None" ≠ .ok m) →
      mainUniform mc pb cfg sample θ files = .ok R ∨ mainHard mc pb cfg sample θ files = .ok R →
      cfg.meshGenerationMethod = "internal") ∧
    (mainExternal mc pb layerDims cfg lhs θ files = .ok R → cfg.meshGenerationMethod = "external") := by
  refine ⟨fun hnone h => ?_, fun h => ?_⟩
  · rcases h with h | h
    · unfold mainUniform at h
      split at h
      · exact absurd h (by simp)
      · exact prepareUniform_method mc cfg pb _ _ sample files hnone _ ‹_›
    · unfold mainHard at h
      split at h
      · exact absurd h (by simp)
      · exact prepareUniform_method mc cfg pb _ _ sample files hnone _ ‹_›
  · unfold mainExternal at h
    split at h
    · exact absurd h (by simp)
    · exact prepareExternal_method mc cfg pb _ lhs files _ ‹_›

/-- **C80** (mesh generation method).  The gear script finishes only with the mesh generation method `external`. -/
theorem C80_method (mc : Machine) (pb : Problem) (cfg : GearConfig) (csv : String → Except PyErr CsvTable)
    (lhs : ℕ → Fin (2 ^ cfg.boundaryRefinementLevel + 1) → ℝ × ℝ) (θ : Weights) (files : Files) (R : RunResult)
    (h : mainGear mc pb cfg csv lhs θ files = .ok R) : cfg.meshGenerationMethod = "external" := by
  unfold mainGear at h
  split at h
  · exact absurd h (by simp)
  · exact prepareExternal_method mc cfg.toForwardConfig pb _ lhs files _ ‹_›

/-- **C79** (mesh generation method).  The scripts for a coefficient field finish only with one of the two mesh generation
methods. -/
theorem C79_method (mc : Machine) (pb : DomainProblem) (cfg : InverseConfig) (src : DomainSource cfg.numSensorPoints)
    (sample : Fin 4 → Fin (cfg.nBoundaryPoints / 4) → ℝ)
    (lhs : ℕ → Fin (2 ^ cfg.boundaryRefinementLevel + 1) → ℝ × ℝ) (θ : Weights) (files : Files) (R : DomainResult)
    (h : mainDomain mc pb cfg src sample lhs θ files = .ok R) :
    cfg.meshGenerationMethod = "internal" ∨ cfg.meshGenerationMethod = "external" := by
  unfold mainDomain at h
  split at h
  · exact absurd h (by simp)
  rename_i P hP
  unfold prepareDomain at hP
  split at hP
  · exact absurd hP (by simp)
  split at hP
  · exact absurd hP (by simp)
  exact newGeometry_method ‹_›

/-- The configuration with another architecture. -/
def InverseConfig.withArchitecture (cfg : InverseConfig) (dims : List ℕ) : InverseConfig :=
  { cfg with toForwardConfig := { cfg.toForwardConfig with modelArchitecture := dims } }

lemma reportDomain_architecture (mc : Machine) (cfg : InverseConfig) (dims : List ℕ) (lr : LearningRate)
    (o : GeometryObject) (M : DriverModel (TrainOutInverse 1)) :
    reportDomain mc (cfg.withArchitecture dims) lr o M = reportDomain mc cfg lr o M := by
  have h : outputDomain mc (cfg.withArchitecture dims) o = outputDomain mc cfg o := by
    unfold outputDomain
    rfl
  funext a b c e f g k
  unfold reportDomain
  rw [h]
  rfl

lemma finishDomain_architecture (mc : Machine) (cfg : InverseConfig) (dims : List ℕ)
    (M : DriverModel (TrainOutInverse 1)) :
    finishDomain mc (cfg.withArchitecture dims) M = finishDomain mc cfg M := by
  have h : ∀ a, arrayLines mc.env.fmt (cfg.withArchitecture dims) a = arrayLines mc.env.fmt cfg a := by
    intro a
    unfold arrayLines
    dsimp only [InverseConfig.withArchitecture]
    rcases reshapeMatrix cfg.nTestPointsX cfg.nTestPointsY a with e | A <;> rfl
  funext a b c
  unfold finishDomain
  simp only [h]
  rfl

lemma runDomain_architecture (mc : Machine) (cfg : InverseConfig) (dims : List ℕ) (pb : DomainProblem)
    (src : DomainSource cfg.numSensorPoints) (P : PreparedDomain) (M : DriverModel (TrainOutInverse 1)) (θ : Weights) :
    runDomain mc (cfg.withArchitecture dims) pb src P M θ = runDomain mc cfg pb src P M θ := by
  have h : ∀ a b, domainContour (cfg.withArchitecture dims) a b = domainContour cfg a b := fun a b => rfl
  unfold runDomain
  simp only [reportDomain_architecture, finishDomain_architecture, h]
  rfl

/-- **C79** (architectures with fewer than two entries).  With no entry the scripts for a coefficient field do not
finish, and a single entry `[n]` is the same as `[n, n]`.  So the theorems on architectures with at least two entries
cover every run that finishes. -/
theorem C79_short_architecture (mc : Machine) (pb : DomainProblem) (cfg : InverseConfig)
    (src : DomainSource cfg.numSensorPoints) (sample : Fin 4 → Fin (cfg.nBoundaryPoints / 4) → ℝ)
    (lhs : ℕ → Fin (2 ^ cfg.boundaryRefinementLevel + 1) → ℝ × ℝ) (θ : Weights) (files : Files) :
    (∀ R, mainDomain mc pb (cfg.withArchitecture []) src sample lhs θ files ≠ .ok R) ∧
    ∀ n, mainDomain mc pb (cfg.withArchitecture [n]) src sample lhs θ files
      = mainDomain mc pb (cfg.withArchitecture [n, n]) src sample lhs θ files := by
  refine ⟨fun R h => ?_, fun n => ?_⟩
  case refine_2 =>
    have hs : ∀ a, layerSpecs [n] a = layerSpecs [n, n] a := fun a => rfl
    have hi : pyIndex [n] 0 = pyIndex [n, n] 0 := rfl
    have hp : prepareDomain mc (cfg.withArchitecture [n]) pb src sample lhs files
        = prepareDomain mc (cfg.withArchitecture [n, n]) pb src sample lhs files := by
      have hm : ∀ o f c b, prepareDomainModel mc (cfg.withArchitecture [n]) pb src o f c b
          = prepareDomainModel mc (cfg.withArchitecture [n, n]) pb src o f c b := by
        intro o f c b
        unfold prepareDomainModel
        dsimp only [InverseConfig.withArchitecture]
        rcases fespace2D mc.quad ((o.mesh.map StoredMesh.planePoints).getD []) c b
            ⟨o.meshType, cfg.feOrder, cfg.feType, cfg.quadOrder, cfg.quadType, "bilinear"⟩
            pb.boundaryFunctionDict pb.rhs false with e | ⟨nq, S⟩
        · rfl
        · dsimp only
          rcases dataHandler2D S true with e | ⟨D, S'⟩
          · rfl
          · dsimp only
            rcases getDirichletInput S' with e | bdv
            · rfl
            · dsimp only
              rcases src.sensors mc.env cfg.meshGenerationMethod pb S' o f with e | ⟨sn, o'⟩
              · rfl
              · dsimp only
                simp only [hs, hi]
      unfold prepareDomain
      simp only [hm]
      rfl
    unfold mainDomain
    rw [hp]
    split
    · rfl
    · rw [runDomain_architecture, runDomain_architecture]
      rfl
  unfold mainDomain at h
  split at h
  · exact absurd h (by simp)
  rename_i P hP
  unfold prepareDomain at hP
  split at hP
  · exact absurd hP (by simp)
  split at hP
  · exact absurd hP (by simp)
  split at hP
  · exact absurd hP (by simp)
  · unfold prepareDomainModel at hP
    simp only [InverseConfig.withArchitecture, layerSpecs, pyIndex] at hP
    repeat (split at hP; · exact absurd hP (by simp))
    simp_all
  · exact absurd hP (by simp)

/-- The hypotheses are met: the gear script and the script on mesh files finish on the demonstration mesh, the script
on the rectangle with the shipped configuration. -/
example (quad : QuadRoutines) (sample : Fin 4 → Fin (400 / 4) → ℝ) (lhs : ℕ → Fin (2 ^ 2 + 1) → ℝ × ℝ)
    (θ : Weights) :
    (∀ m, (demoMachine quad).env.read demoFiles "None" ≠ .ok m) ∧
    (∃ R, mainUniform (demoMachine quad) problemUniformPoisson configUniformPoisson sample θ demoFiles = .ok R) ∧
    ∃ R, mainExternal (demoMachine quad) demoProblem ForwardConfig.modelArchitecture demoConfig lhs θ demoFiles
      = .ok R :=
  ⟨by simp [MeshFiles.read, demoFiles],
    (C76_shipped_uniform (demoMachine quad) (fun _ _ _ _ => ⟨_, rfl⟩) (fun _ => by simp [demoMachine]) sample θ
      demoFiles).1,
    (demoConfig_runs quad lhs θ).2.2.1⟩

end FastVPINNs
