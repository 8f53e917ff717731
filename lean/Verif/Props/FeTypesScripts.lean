import Verif.Props.FeTypes
import Verif.Model.DriverDomain
import Verif.Model.DriverGear
import Verif.Model.AccuracyInverse
import Verif.Model.Notebook
import Verif.Model.BuildTest

/-! # C117: the synonyms in the scripts for inverse problems, on the gear and in the notebooks -/

namespace FastVPINNs

open Spec

section
variable {V : Type} {nt nq : ℕ}

lemma dataLoop_meshPoints : ∀ (is : List ℕ) {S : Fespace2D (ℝ → ℝ → ℝ) V nt nq} (out : List (CellTensors nt nq))
    {r : List (CellTensors nt nq) × Fespace2D (ℝ → ℝ → ℝ) V nt nq},
    dataLoop is S out = .ok r → r.2.meshPoints = S.meshPoints
  | [], _, _, _, h => by
    simp only [dataLoop, Except.ok.injEq] at h
    rw [← h]
  | i :: is, S, out, r, h => by
    unfold dataLoop at h
    rcases hS : cellTensors S i with e | ⟨t, S₁⟩
    · rw [hS] at h; cases h
    · rw [hS] at h
      rw [dataLoop_meshPoints is _ h]
      unfold cellTensors Fespace2D.getShapeFunctionVal Fespace2D.getShapeFunctionGradX Fespace2D.getShapeFunctionGradY
        Fespace2D.getQuadratureActualCoordinates Fespace2D.getForcingFunctionValues at hS
      rcases hc : S.cellAt i with e | c
      · rw [hc] at hS; cases hS
      · simp only [hc, Except.ok.injEq, Prod.mk.injEq] at hS
        rw [← hS.2]
        rfl

lemma dataHandler_meshPoints {S S' : Fespace2D (ℝ → ℝ → ℝ) V nt nq} {isTf : Bool} {D : DataHandler2D nt nq}
    (h : dataHandler2D S isTf = .ok (D, S')) : S'.meshPoints = S.meshPoints := by
  unfold dataHandler2D at h
  cases isTf
  · cases h
  · simp only [if_true] at h
    rcases hS : dataLoop (List.range S.nCells) S [] with e | ⟨t, S₁⟩
    · rw [hS] at h; cases h
    · rw [hS] at h
      simp only [Except.ok.injEq, Prod.mk.injEq] at h
      rw [← h.2]
      exact dataLoop_meshPoints _ _ hS

lemma getSensorData_meshPoints {F : Type} {S S' : Fespace2D F ℝ nt nq} (h : S.meshPoints = S'.meshPoints)
    (exact : ℝ → ℝ → ℝ) (n : ℕ) (method : String) (lhs : (k : ℕ) → Fin k → ℝ × ℝ) (file : Option (List (ℝ × ℝ × ℝ)))
    (randint : ℕ → Fin n → ℤ) :
    getSensorData S exact n method lhs file randint = getSensorData S' exact n method lhs file randint := by
  unfold getSensorData Fespace2D.getSensorData
  rw [h]

end

lemma prepareInverseModel_synonym (mc : Machine) (cfg : InverseConfig) (pb : InverseProblem)
    (sensorLhs : (k : ℕ) → Fin k → ℝ × ℝ) (randint : ℕ → Fin cfg.numSensorPoints → ℤ) (o : GeometryObject)
    (files : Files) (cells : List Quad) (bd : BdDict) {t t' : String} (ht : Synonym t) (ht' : Synonym t') :
    prepareInverseModel mc { cfg with feType := t } pb sensorLhs randint o files cells bd
      = prepareInverseModel mc { cfg with feType := t' } pb sensorLhs randint o files cells bd := by
  have hr := fespace_synonym mc.quad ((o.mesh.map StoredMesh.planePoints).getD []) cells bd
    ⟨o.meshType, cfg.feOrder, cfg.feType, cfg.quadOrder, cfg.quadType, "bilinear"⟩ pb.boundaryFunctionDict pb.rhs
    false ht ht'
  unfold prepareInverseModel
  simp only at hr ⊢
  generalize fespace2D mc.quad ((o.mesh.map StoredMesh.planePoints).getD []) cells bd
    ⟨o.meshType, cfg.feOrder, t, cfg.quadOrder, cfg.quadType, "bilinear"⟩ pb.boundaryFunctionDict pb.rhs
    false = a at hr ⊢
  generalize fespace2D mc.quad ((o.mesh.map StoredMesh.planePoints).getD []) cells bd
    ⟨o.meshType, cfg.feOrder, t', cfg.quadOrder, cfg.quadType, "bilinear"⟩ pb.boundaryFunctionDict pb.rhs
    false = b at hr ⊢
  obtain _ | h' := hr
  · rfl
  subst h'
  rename_i a
  obtain ⟨nq, S⟩ := a
  simp only
  have hd := dataHandler_same (sameSpace_settings S
    ⟨o.meshType, cfg.feOrder, t', cfg.quadOrder, cfg.quadType, "bilinear"⟩) true
  have hm : ∀ D S', dataHandler2D S true = .ok (D, S') → S'.meshPoints = S.meshPoints :=
    fun D S' h => dataHandler_meshPoints h
  have hm' : ∀ D S', dataHandler2D { S with settings :=
    ⟨o.meshType, cfg.feOrder, t', cfg.quadOrder, cfg.quadType, "bilinear"⟩ } true = .ok (D, S') →
    S'.meshPoints = S.meshPoints := fun D S' h => (dataHandler_meshPoints h).trans rfl
  generalize dataHandler2D S true = a at hd hm ⊢
  generalize dataHandler2D { S with settings :=
    ⟨o.meshType, cfg.feOrder, t', cfg.quadOrder, cfg.quadType, "bilinear"⟩ } true = b at hd hm' ⊢
  obtain _ | ⟨h1, h2⟩ := hd
  · rfl
  rename_i a b
  obtain ⟨D, S₁⟩ := a
  obtain ⟨D', S₁'⟩ := b
  simp only at h1 h2 ⊢
  subst h1
  have h3 := (hm _ _ rfl).trans (hm' _ _ rfl).symm
  rw [getDirichletInput_same h2, getSensorData_meshPoints h3, h2.nCells]

lemma prepareDomainModel_synonym (mc : Machine) (cfg : InverseConfig) (pb : DomainProblem)
    (src : DomainSource cfg.numSensorPoints) (o : GeometryObject)
    (files : Files) (cells : List Quad) (bd : BdDict) {t t' : String} (ht : Synonym t) (ht' : Synonym t') :
    prepareDomainModel mc { cfg with feType := t } pb src o files cells bd
      = prepareDomainModel mc { cfg with feType := t' } pb src o files cells bd := by
  have hr := fespace_synonym mc.quad ((o.mesh.map StoredMesh.planePoints).getD []) cells bd
    ⟨o.meshType, cfg.feOrder, cfg.feType, cfg.quadOrder, cfg.quadType, "bilinear"⟩ pb.boundaryFunctionDict pb.rhs
    false ht ht'
  unfold prepareDomainModel
  simp only at hr ⊢
  generalize fespace2D mc.quad ((o.mesh.map StoredMesh.planePoints).getD []) cells bd
    ⟨o.meshType, cfg.feOrder, t, cfg.quadOrder, cfg.quadType, "bilinear"⟩ pb.boundaryFunctionDict pb.rhs
    false = a at hr ⊢
  generalize fespace2D mc.quad ((o.mesh.map StoredMesh.planePoints).getD []) cells bd
    ⟨o.meshType, cfg.feOrder, t', cfg.quadOrder, cfg.quadType, "bilinear"⟩ pb.boundaryFunctionDict pb.rhs
    false = b at hr ⊢
  obtain _ | h' := hr
  · rfl
  subst h'
  rename_i a
  obtain ⟨nq, S⟩ := a
  simp only
  have hd := dataHandler_same (sameSpace_settings S
    ⟨o.meshType, cfg.feOrder, t', cfg.quadOrder, cfg.quadType, "bilinear"⟩) true
  have hm : ∀ D S', dataHandler2D S true = .ok (D, S') → S'.meshPoints = S.meshPoints :=
    fun D S' h => dataHandler_meshPoints h
  have hm' : ∀ D S', dataHandler2D { S with settings :=
    ⟨o.meshType, cfg.feOrder, t', cfg.quadOrder, cfg.quadType, "bilinear"⟩ } true = .ok (D, S') →
    S'.meshPoints = S.meshPoints := fun D S' h => (dataHandler_meshPoints h).trans rfl
  generalize dataHandler2D S true = a at hd hm ⊢
  generalize dataHandler2D { S with settings :=
    ⟨o.meshType, cfg.feOrder, t', cfg.quadOrder, cfg.quadType, "bilinear"⟩ } true = b at hd hm' ⊢
  obtain _ | ⟨h1, h2⟩ := hd
  · rfl
  rename_i a b
  obtain ⟨D, S₁⟩ := a
  obtain ⟨D', S₁'⟩ := b
  simp only at h1 h2 ⊢
  subst h1
  have h3 := (hm _ _ rfl).trans (hm' _ _ rfl).symm
  have hs : src.sensors mc.env cfg.meshGenerationMethod pb S₁ o files
      = src.sensors mc.env cfg.meshGenerationMethod pb S₁' o files := by
    cases src with
    | usa shuffle => rfl
    | circle csv lhs randint =>
      unfold DomainSource.sensors
      simp only [getSensorData_meshPoints h3]
  rw [getDirichletInput_same h2, hs, h2.nCells]

lemma prepareInverse_synonym (mc : Machine) (cfg : InverseConfig) (pb : InverseProblem)
    (sample : Fin 4 → Fin (cfg.nBoundaryPoints / 4) → ℝ)
    (lhs : ℕ → Fin (2 ^ cfg.boundaryRefinementLevel + 1) → ℝ × ℝ) (sensorLhs : (k : ℕ) → Fin k → ℝ × ℝ)
    (randint : ℕ → Fin cfg.numSensorPoints → ℤ) (files : Files) {t t' : String} (ht : Synonym t) (ht' : Synonym t') :
    prepareInverse mc { cfg with feType := t } pb sample lhs sensorLhs randint files
      = prepareInverse mc { cfg with feType := t' } pb sample lhs sensorLhs randint files := by
  unfold prepareInverse
  simp only [prepareInverseModel_synonym mc cfg pb sensorLhs randint _ _ _ _ ht ht']

lemma prepareDomain_synonym (mc : Machine) (cfg : InverseConfig) (pb : DomainProblem)
    (src : DomainSource cfg.numSensorPoints) (sample : Fin 4 → Fin (cfg.nBoundaryPoints / 4) → ℝ)
    (lhs : ℕ → Fin (2 ^ cfg.boundaryRefinementLevel + 1) → ℝ × ℝ) (files : Files) {t t' : String} (ht : Synonym t)
    (ht' : Synonym t') :
    prepareDomain mc { cfg with feType := t } pb src sample lhs files
      = prepareDomain mc { cfg with feType := t' } pb src sample lhs files := by
  unfold prepareDomain
  simp only [prepareDomainModel_synonym mc cfg pb src _ _ _ _ ht ht']

lemma runInverse_feType {dout : ℕ} (mc : Machine) (cfg : InverseConfig) (t t' : String) (pb : InverseProblem)
    (P : PreparedInverse) (M : DriverModel (TrainOutInverse dout × ℝ)) (θ : Weights) :
    runInverse mc { cfg with feType := t } pb P M θ = runInverse mc { cfg with feType := t' } pb P M θ := by
  unfold runInverse
  generalize P.base.geometry.getTestPoints mc.env P.base.files = g
  obtain ⟨r, o, files⟩ := g
  cases r with
  | error e => rfl
  | ok v =>
    cases v with
    | points points =>
      simp only
      cases contourMatrices cfg.nTestPointsX cfg.nTestPointsY pb.exactSolution points with
      | error e => rfl
      | ok m =>
        simp only
        cases plotContour m.1 m.2.1 m.2.2 cfg.outputPath "exact_solution" "Exact Solution" ⟨[], fun _ => none⟩ with
        | error e => rfl
        | ok w => rfl
    | _ => rfl

lemma runDomain_feType (mc : Machine) (cfg : InverseConfig) (t t' : String) (pb : DomainProblem)
    (src : DomainSource cfg.numSensorPoints) (P : PreparedDomain) (M : DriverModel (TrainOutInverse 1)) (θ : Weights) :
    runDomain mc { cfg with feType := t } pb src P M θ = runDomain mc { cfg with feType := t' } pb src P M θ := by
  have hc : ∀ points yExact, domainContour { cfg with feType := t } points yExact
      = domainContour { cfg with feType := t' } points yExact := by
    intro points yExact
    unfold domainContour
    rfl
  have hr : ∀ lr o points yExact actual, reportDomain mc { cfg with feType := t } lr o M points yExact actual
      = reportDomain mc { cfg with feType := t' } lr o M points yExact actual := by
    intro lr o points yExact actual
    rfl
  have hf : ∀ yExact actual s, finishDomain mc { cfg with feType := t } M yExact actual s
      = finishDomain mc { cfg with feType := t' } M yExact actual s := by
    intro yExact actual s
    have ha : ∀ x, arrayLines mc.env.fmt { cfg with feType := t } x
        = arrayLines mc.env.fmt { cfg with feType := t' } x := by
      intro x
      unfold arrayLines
      by_cases h : cfg.meshGenerationMethod = "internal"
      · simp only [h, if_true]
        cases reshapeMatrix cfg.nTestPointsX cfg.nTestPointsY x <;> rfl
      · simp only [h, if_false]
    unfold finishDomain
    simp only [ha]
  unfold runDomain
  simp only [hc, hr, hf]

/-- **C117** (scripts for inverse problems).  The script for a constant coefficient and the two scripts for a coefficient
that depends on the position give the same result for the three names: the same weights, coefficients, reports, tables
and files, or the same exception. -/
theorem C117_inverse_scripts (mc : Machine) (cfg : InverseConfig) (t t' : String) (ht : Synonym t) (ht' : Synonym t')
    (sample : Fin 4 → Fin (cfg.nBoundaryPoints / 4) → ℝ)
    (lhs : ℕ → Fin (2 ^ cfg.boundaryRefinementLevel + 1) → ℝ × ℝ) (θ : Weights) (files : Files) :
    (∀ pb sensorLhs randint, mainInverse mc pb { cfg with feType := t } sample lhs sensorLhs randint θ files
      = mainInverse mc pb { cfg with feType := t' } sample lhs sensorLhs randint θ files) ∧
    (∀ pb shuffle, mainUsa mc pb { cfg with feType := t } shuffle sample lhs θ files
      = mainUsa mc pb { cfg with feType := t' } shuffle sample lhs θ files) ∧
    ∀ pb csv sensorLhs randint, mainCircle mc pb { cfg with feType := t } csv sensorLhs randint sample lhs θ files
      = mainCircle mc pb { cfg with feType := t' } csv sensorLhs randint sample lhs θ files := by
  have hdom : ∀ pb (src : DomainSource cfg.numSensorPoints), mainDomain mc pb { cfg with feType := t } src sample lhs θ
      files = mainDomain mc pb { cfg with feType := t' } src sample lhs θ files := by
    intro pb src
    unfold mainDomain
    rw [prepareDomain_synonym mc cfg pb src sample lhs files ht ht']
    generalize prepareDomain mc { cfg with feType := t' } pb src sample lhs files = P
    cases P with
    | error e => rfl
    | ok P =>
      have hM : P.model mc { cfg with feType := t } pb (outDim P.base.specs)
          = P.model mc { cfg with feType := t' } pb (outDim P.base.specs) := rfl
      simp only [hM]
      exact runDomain_feType mc cfg t t' pb src P _ θ
  refine ⟨fun pb sensorLhs randint => ?_, fun pb shuffle => hdom pb _, fun pb csv sensorLhs randint => hdom pb _⟩
  unfold mainInverse
  rw [prepareInverse_synonym mc cfg pb sample lhs sensorLhs randint files ht ht']
  generalize prepareInverse mc { cfg with feType := t' } pb sample lhs sensorLhs randint files = P
  cases P with
  | error e => rfl
  | ok P =>
    have hM : P.model mc { cfg with feType := t } pb (outDim P.base.specs)
        = P.model mc { cfg with feType := t' } pb (outDim P.base.specs) := rfl
    simp only [hM]
    exact runInverse_feType mc cfg t t' pb P _ _

/-- **C117** (accuracy tests of inverse problems).  They pass, fail or raise alike for the three names. -/
theorem C117_inverse_tests (mc : Machine) (cfg : InverseConfig) (t t' : String) (ht : Synonym t) (ht' : Synonym t')
    (sample : Fin 4 → Fin (cfg.nBoundaryPoints / 4) → ℝ)
    (lhs : ℕ → Fin (2 ^ cfg.boundaryRefinementLevel + 1) → ℝ × ℝ) (tol tolEps : ℝ)
    (randint : ℕ → Fin cfg.numSensorPoints → ℤ) (θ : Weights) (files : Files) :
    (∀ pb sensorLhs,
      accuracyInverseSquare mc pb { cfg with feType := t } tol tolEps sample lhs sensorLhs randint θ files
        = accuracyInverseSquare mc pb { cfg with feType := t' } tol tolEps sample lhs sensorLhs randint θ files) ∧
    (∀ pb csv, accuracyInverseDisc mc pb { cfg with feType := t } tol tolEps lhs csv randint θ files
      = accuracyInverseDisc mc pb { cfg with feType := t' } tol tolEps lhs csv randint θ files) ∧
    ∀ pb csv sensorLhs, accuracyDomain mc pb { cfg with feType := t } tol csv sensorLhs randint sample lhs θ files
      = accuracyDomain mc pb { cfg with feType := t' } tol csv sensorLhs randint sample lhs θ files := by
  refine ⟨fun pb sensorLhs => ?_, fun pb csv => ?_, fun pb csv sensorLhs => ?_⟩
  · unfold accuracyInverseSquare
    rw [prepareInverse_synonym mc cfg pb sample lhs sensorLhs randint files ht ht']
    rfl
  · have hp : ∀ o files cells bd, prepareModel mc ({ cfg with feType := t } : InverseConfig).forward pb.toProblem
        cfg.modelArchitecture learningRateFnStaircase o files cells bd
        = prepareModel mc ({ cfg with feType := t' } : InverseConfig).forward pb.toProblem
        cfg.modelArchitecture learningRateFnStaircase o files cells bd := fun o files cells bd =>
      prepareModel_synonym mc cfg.forward pb.toProblem _ _ o files cells bd ht ht'
    have he : prepareInverseFile mc { cfg with feType := t } pb lhs csv randint files
        = prepareInverseFile mc { cfg with feType := t' } pb lhs csv randint files := by
      unfold prepareInverseFile
      simp only [hp]
    unfold accuracyInverseDisc
    rw [he]
    rfl
  · unfold accuracyDomain
    rw [prepareDomain_synonym mc cfg pb (.circle csv sensorLhs randint) sample lhs files ht ht']
    rfl

/-- **C117** (gear, notebooks, test of the installation).  The same for the script on the gear, the two notebooks and the
test of the installation. -/
theorem C117_other_scripts (mc : Machine) (pb : Problem) (t t' : String) (ht : Synonym t) (ht' : Synonym t')
    (θ : Weights) (files : Files) :
    (∀ (cfg : GearConfig) csv lhs, mainGear mc pb { cfg with feType := t } csv lhs θ files
      = mainGear mc pb { cfg with feType := t' } csv lhs θ files) ∧
    ∀ (cfg : ForwardConfig) (sample : Fin 4 → Fin (cfg.nBoundaryPoints / 4) → ℝ),
      (∀ triangulate, notebookTraining mc triangulate pb { cfg with feType := t } sample θ files
        = notebookTraining mc triangulate pb { cfg with feType := t' } sample θ files) ∧
      (∀ triangulate, notebookCustom mc triangulate pb { cfg with feType := t } sample θ files
        = notebookCustom mc triangulate pb { cfg with feType := t' } sample θ files) ∧
      buildTest mc pb { cfg with feType := t } sample θ files
        = buildTest mc pb { cfg with feType := t' } sample θ files := by
  have hu : ∀ (cfg : ForwardConfig) (sample : Fin 4 → Fin (cfg.nBoundaryPoints / 4) → ℝ) layers lrFn,
      prepareUniform mc { cfg with feType := t } pb layers lrFn sample files
      = prepareUniform mc { cfg with feType := t' } pb layers lrFn sample files := by
    intro cfg sample layers lrFn
    unfold prepareUniform
    simp only [prepareModel_synonym mc cfg pb layers lrFn _ _ _ _ ht ht']
  have hn : ∀ (cfg : ForwardConfig) (sample : Fin 4 → Fin (cfg.nBoundaryPoints / 4) → ℝ) layers lrFn,
      prepareUniform mc (notebookSettings { cfg with feType := t }) pb layers lrFn sample files
      = prepareUniform mc (notebookSettings { cfg with feType := t' }) pb layers lrFn sample files :=
    fun cfg sample layers lrFn => hu (notebookSettings cfg) sample layers lrFn
  refine ⟨fun cfg csv lhs => ?_, fun cfg sample => ⟨fun triangulate => ?_, fun triangulate => ?_, ?_⟩⟩
  · have he : prepareExternal mc ({ cfg with feType := t } : GearConfig).toForwardConfig pb cfg.modelArchitecture lhs files
        = prepareExternal mc ({ cfg with feType := t' } : GearConfig).toForwardConfig pb cfg.modelArchitecture lhs
          files := by
      unfold prepareExternal
      simp only [prepareModel_synonym mc cfg.toForwardConfig pb _ _ _ _ _ _ ht ht']
    unfold mainGear
    rw [he]
    rfl
  · unfold notebookTraining
    rw [hn]
    rfl
  · unfold notebookCustom
    rw [hn]
    rfl
  · unfold buildTest
    rw [hu]
    rfl

/-- The hypotheses are met by the names in the shipped settings: with `legendre` instead of `jacobi` the test of the
installation, and with `legendre_special` instead of `jacobi` the script for the inverse problem, give what they give as
shipped. -/
example (mc : Machine) (θ : Weights) (files : Files) :
    (∀ sample, buildTest mc testCd2d { buildSettings with feType := "legendre" } sample θ files
      = buildTest mc testCd2d { buildSettings with feType := "jacobi" } sample θ files) ∧
    ∀ sample lhs sensorLhs randint,
      mainInverse mc problemInverse { configInverse with feType := "legendre_special" } sample lhs sensorLhs randint θ files
        = mainInverse mc problemInverse { configInverse with feType := "jacobi" } sample lhs sensorLhs randint θ files :=
  ⟨fun sample => ((C117_other_scripts mc testCd2d "legendre" "jacobi" (by simp [Synonym]) (by simp [Synonym]) θ files).2
    buildSettings sample).2.2,
  fun sample lhs sensorLhs randint => (C117_inverse_scripts mc configInverse "legendre_special" "jacobi"
    (by simp [Synonym]) (by simp [Synonym]) sample lhs θ files).1 problemInverse sensorLhs randint⟩

end FastVPINNs
