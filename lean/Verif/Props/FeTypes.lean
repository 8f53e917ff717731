import Verif.Lemmas.FeTypes
import Verif.Props.Nested
import Verif.Props.AccuracyTests

/-! # C117: `legendre`, `jacobi` and `legendre_special` are one choice, and `chebyshev_2` an equivalent one -/

namespace FastVPINNs

open Spec

/-- **C117** (synonyms).  With `legendre`, `jacobi` or `legendre_special` the constructor of the space raises the same
exception or gives spaces that differ in the stored settings only, with the same tables and the same data handler. -/
theorem C117_synonyms {V : Type} (ext : QuadRoutines) (mp : List (ℝ × ℝ)) (cells : List Quad) (bd : BdDict)
    (s : FESettings) (dict : List (ℤ × (ℝ → ℝ → V))) (f : ℝ → ℝ → ℝ) (plot : Bool) (t t' : String) (ht : Synonym t)
    (ht' : Synonym t') :
    (∀ e, fespace2D ext mp cells bd { s with feType := t } dict f plot = .error e ↔
      fespace2D ext mp cells bd { s with feType := t' } dict f plot = .error e) ∧
    ∀ (nq : ℕ) (S : Fespace2D (ℝ → ℝ → ℝ) V (s.feOrder.toNat ^ 2) nq),
      fespace2D ext mp cells bd { s with feType := t } dict f plot = .ok ⟨nq, S⟩ →
      ∃ S', fespace2D ext mp cells bd { s with feType := t' } dict f plot = .ok ⟨nq, S'⟩ ∧
        S' = { S with settings := { s with feType := t' } } ∧ SameTables S S' ∧ ∀ isTf,
          (∀ e, dataHandler2D S isTf = .error e ↔ dataHandler2D S' isTf = .error e) ∧
          ∀ D S₁, dataHandler2D S isTf = .ok (D, S₁) → ∃ S₁', dataHandler2D S' isTf = .ok (D, S₁') := by
  have hr := fespace_synonym ext mp cells bd s dict f plot ht ht'
  generalize fespace2D ext mp cells bd { s with feType := t } dict f plot = a at hr
  generalize fespace2D ext mp cells bd { s with feType := t' } dict f plot = b at hr
  refine ⟨fun e => ?_, fun nq S h => ?_⟩
  · obtain _ | _ := hr <;> simp
  · obtain _ | h' := hr
    · cases h
    cases h
    subst h'
    have hS : SameSpace S { S with settings := { s with feType := t' } } := sameSpace_settings _ _
    refine ⟨_, rfl, rfl, tables_same hS, fun isTf => ?_⟩
    have hd := dataHandler_same hS isTf
    simp only
    generalize dataHandler2D S isTf = a at hd
    generalize dataHandler2D { S with settings := { s with feType := t' } } isTf = b at hd
    refine ⟨fun e => ?_, fun D S₁ h => ?_⟩
    · obtain _ | _ := hd <;> simp
    · obtain _ | ⟨h1, h2⟩ := hd
      · cases h
      cases h
      rename_i b
      obtain ⟨D', S₁'⟩ := b
      simp only at h1
      subst h1
      exact ⟨S₁', rfl⟩

/-- The steps of a script from the space to the model. -/
lemma prepareModel_synonym (mc : Machine) (cfg : ForwardConfig) (pb : Problem) (layerDims : List ℕ)
    (lrFn : List (String × PyVal) → Except PyErr LearningRate) (o : GeometryObject) (files : Files)
    (cells : List Quad) (bd : BdDict) {t t' : String} (ht : Synonym t) (ht' : Synonym t') :
    prepareModel mc { cfg with feType := t } pb layerDims lrFn o files cells bd
      = prepareModel mc { cfg with feType := t' } pb layerDims lrFn o files cells bd := by
  have hr := fespace_synonym mc.quad ((o.mesh.map StoredMesh.planePoints).getD []) cells bd
    ⟨o.meshType, cfg.feOrder, cfg.feType, cfg.quadOrder, cfg.quadType, "bilinear"⟩ pb.boundaryFunctionDict pb.rhs
    cfg.generateMeshPlot ht ht'
  unfold prepareModel
  simp only at hr ⊢
  generalize fespace2D mc.quad ((o.mesh.map StoredMesh.planePoints).getD []) cells bd
    ⟨o.meshType, cfg.feOrder, t, cfg.quadOrder, cfg.quadType, "bilinear"⟩ pb.boundaryFunctionDict pb.rhs
    cfg.generateMeshPlot = a at hr ⊢
  generalize fespace2D mc.quad ((o.mesh.map StoredMesh.planePoints).getD []) cells bd
    ⟨o.meshType, cfg.feOrder, t', cfg.quadOrder, cfg.quadType, "bilinear"⟩ pb.boundaryFunctionDict pb.rhs
    cfg.generateMeshPlot = b at hr ⊢
  obtain _ | h' := hr
  · rfl
  subst h'
  rename_i a
  obtain ⟨nq, S⟩ := a
  simp only
  have hd := dataHandler_same (sameSpace_settings S
    ⟨o.meshType, cfg.feOrder, t', cfg.quadOrder, cfg.quadType, "bilinear"⟩) true
  generalize dataHandler2D S true = a at hd ⊢
  generalize dataHandler2D { S with settings :=
    ⟨o.meshType, cfg.feOrder, t', cfg.quadOrder, cfg.quadType, "bilinear"⟩ } true = b at hd ⊢
  obtain _ | ⟨h1, h2⟩ := hd
  · rfl
  rename_i a b
  obtain ⟨D, S₁⟩ := a
  obtain ⟨D', S₁'⟩ := b
  simp only at h1 h2 ⊢
  subst h1
  rw [getDirichletInput_same h2, h2.nCells]

lemma runUniform_feType {α : Type} (mc : Machine) (cfg : ForwardConfig) (t t' : String) (pb : Problem) (P : Prepared)
    (M : DriverModel α) (θ : Weights) : runUniform mc { cfg with feType := t } pb P M θ
      = runUniform mc { cfg with feType := t' } pb P M θ := by
  unfold runUniform
  generalize P.geometry.getTestPoints mc.env P.files = g
  obtain ⟨r, o, files⟩ := g
  cases r with
  | error e => rfl
  | ok v =>
    cases v with
    | points points =>
      simp only
      cases contourMatrices cfg.nTestPointsX cfg.nTestPointsY pb.exactSolution points with
      | error e => rfl
      | ok m =>
        simp only
        cases plotContour m.1 m.2.1 m.2.2 cfg.outputPath "exact_solution" "Exact Solution" ⟨[], fun _ => none⟩ with
        | error e => rfl
        | ok w => rfl
    | _ => rfl

/-- **C117** (scripts).  A script for a forward problem, on the rectangle or with a mesh file, gives the same result
for the three names: the same weights, reports, tables and files, or the same exception. -/
theorem C117_scripts (mc : Machine) (pb : Problem) (cfg : ForwardConfig) (t t' : String) (ht : Synonym t)
    (ht' : Synonym t') (θ : Weights) (files : Files) :
    (∀ sample, mainUniform mc pb { cfg with feType := t } sample θ files
      = mainUniform mc pb { cfg with feType := t' } sample θ files) ∧
    (∀ sample, mainHard mc pb { cfg with feType := t } sample θ files
      = mainHard mc pb { cfg with feType := t' } sample θ files) ∧
    (∀ (layers : ForwardConfig → List ℕ) lhs,
      layers { cfg with feType := t } = layers { cfg with feType := t' } →
      mainExternal mc pb layers { cfg with feType := t } lhs θ files
        = mainExternal mc pb layers { cfg with feType := t' } lhs θ files) := by
  have hu : ∀ layers lrFn sample, prepareUniform mc { cfg with feType := t } pb layers lrFn sample files
      = prepareUniform mc { cfg with feType := t' } pb layers lrFn sample files := by
    intro layers lrFn sample
    unfold prepareUniform
    simp only [prepareModel_synonym mc cfg pb layers lrFn _ _ _ _ ht ht']
  refine ⟨fun sample => ?_, fun sample => ?_, fun layers lhs hl => ?_⟩
  · unfold mainUniform
    rw [hu]
    generalize prepareUniform mc { cfg with feType := t' } pb fixedLayers learningRateFn sample files = P
    cases P with
    | error e => rfl
    | ok P =>
      have hM : P.dense mc { cfg with feType := t } pb (outDim P.specs)
          = P.dense mc { cfg with feType := t' } pb (outDim P.specs) := rfl
      simp only [hM]
      exact runUniform_feType mc cfg t t' pb P _ θ
  · unfold mainHard
    rw [hu]
    generalize prepareUniform mc { cfg with feType := t' } pb fixedLayers learningRateFnStaircase sample files = P
    cases P with
    | error e => rfl
    | ok P =>
      have hM : P.hard mc { cfg with feType := t } pb (outDim P.specs)
          = P.hard mc { cfg with feType := t' } pb (outDim P.specs) := rfl
      simp only [hM]
      exact runUniform_feType mc cfg t t' pb P _ θ
  · unfold mainExternal
    rw [hl]
    have he : prepareExternal mc { cfg with feType := t } pb (layers { cfg with feType := t' }) lhs files
        = prepareExternal mc { cfg with feType := t' } pb (layers { cfg with feType := t' }) lhs files := by
      unfold prepareExternal
      simp only [prepareModel_synonym mc cfg pb _ _ _ _ _ _ ht ht']
    rw [he]
    rfl

/-- **C117** (accuracy tests).  The tests parametrised by `fe_type` run one and the same computation for `jacobi`
and `legendre_special`: for the same random draws and initial weights they pass, fail or raise for both. -/
theorem C117_accuracy_tests (mc : Machine) (pb : Problem) (cfg : ForwardConfig) (tol : ℝ) (t t' : String)
    (ht : Synonym t) (ht' : Synonym t') (θ : Weights) (files : Files) :
    (∀ checkRate sample, accuracyUniform mc pb { cfg with feType := t } tol checkRate sample θ files
      = accuracyUniform mc pb { cfg with feType := t' } tol checkRate sample θ files) ∧
    (∀ sample, accuracyHard mc pb { cfg with feType := t } tol sample θ files
      = accuracyHard mc pb { cfg with feType := t' } tol sample θ files) ∧
    ∀ lhs, accuracyExternal mc pb { cfg with feType := t } tol lhs θ files
      = accuracyExternal mc pb { cfg with feType := t' } tol lhs θ files := by
  have hu : ∀ layers lrFn sample, prepareUniform mc { cfg with feType := t } pb layers lrFn sample files
      = prepareUniform mc { cfg with feType := t' } pb layers lrFn sample files := by
    intro layers lrFn sample
    unfold prepareUniform
    simp only [prepareModel_synonym mc cfg pb layers lrFn _ _ _ _ ht ht']
  refine ⟨fun checkRate sample => ?_, fun sample => ?_, fun lhs => ?_⟩
  · unfold accuracyUniform
    rw [hu]
    rfl
  · unfold accuracyHard
    rw [hu]
    rfl
  · unfold accuracyExternal
    have he : prepareExternal mc { cfg with feType := t } pb [2, 50, 50, 50, 1] lhs files
        = prepareExternal mc { cfg with feType := t' } pb [2, 50, 50, 50, 1] lhs files := by
      unfold prepareExternal
      simp only [prepareModel_synonym mc cfg pb _ _ _ _ _ _ ht ht']
    rw [he]
    rfl

/-! ### Equivalent families -/

lemma comparable_of {k P₁ P₂ Q L₁ L₂ : ℝ} (hk : 1 ≤ k) (e₁ : L₁ = P₁ + Q) (e₂ : L₂ = P₂ + Q) (hQ : 0 ≤ Q)
    (h : Comparable k P₁ P₂) : Comparable k L₁ L₂ := by
  obtain ⟨h1, h2, h3, h4⟩ := h
  have : Q ≤ k * Q := le_mul_of_one_le_left hQ hk
  subst e₁ e₂
  exact ⟨by linarith, by linarith, by rw [mul_add]; linarith, by rw [mul_add]; linarith⟩

/-- The factor for the PDE losses, which depends on the order and the names only. -/
lemma comparable_losses (o : ℤ) (t t' : String) (ht : BubbleType t) (ht' : BubbleType t') :
    ∃ k : ℝ, 1 ≤ k ∧ ∀ {ext : QuadRoutines} {mp : List (ℝ × ℝ)} {cells : List Quad} {bd : BdDict} {s : FESettings}
      {dict : List (ℤ × (ℝ → ℝ → ℝ))} {f : ℝ → ℝ → ℝ} {plot : Bool} {nq nq' : ℕ}
      {S₁ S₁' : Fespace2D (ℝ → ℝ → ℝ) ℝ (o.toNat ^ 2) nq} {S₂ S₂' : Fespace2D (ℝ → ℝ → ℝ) ℝ (o.toNat ^ 2) nq'}
      {D₁ : DataHandler2D (o.toNat ^ 2) nq} {D₂ : DataHandler2D (o.toNat ^ 2) nq'},
      fespace2D ext mp cells bd { s with feOrder := o, feType := t } dict f plot = .ok ⟨nq, S₁⟩ →
      fespace2D ext mp cells bd { s with feOrder := o, feType := t' } dict f plot = .ok ⟨nq', S₂⟩ →
      dataHandler2D S₁ true = .ok (D₁, S₁') → dataHandler2D S₂ true = .ok (D₂, S₂') →
      ∀ bdv, ∃ pt₁ pt₂, Shaped (modelDataOf D₁ bdv S₁.nCells) pt₁ ∧ Shaped (modelDataOf D₂ bdv S₂.nCells) pt₂ ∧
      ∀ (a u : ℝ × ℝ → ℝ) (b : ℝ × ℝ) (r : ℝ),
        Comparable k (pdeLoss (modelDataOf D₁ bdv S₁.nCells) pt₁ u (fun k q => a (pt₁ k q)) b r)
          (pdeLoss (modelDataOf D₂ bdv S₂.nCells) pt₂ u (fun k q => a (pt₂ k q)) b r) := by
  obtain ⟨A, hA⟩ := family_change o.toNat ht ht'
  obtain ⟨A', hA'⟩ := family_change o.toNat ht' ht
  have n₁ : 0 ≤ ∑ i, ∑ l, productChange o.toNat A i l ^ 2 :=
    Finset.sum_nonneg fun _ _ => Finset.sum_nonneg fun _ _ => sq_nonneg _
  have n₂ : 0 ≤ ∑ i, ∑ l, productChange o.toNat A' i l ^ 2 :=
    Finset.sum_nonneg fun _ _ => Finset.sum_nonneg fun _ _ => sq_nonneg _
  refine ⟨1 + (∑ i, ∑ l, productChange o.toNat A i l ^ 2) + ∑ i, ∑ l, productChange o.toNat A' i l ^ 2, by linarith, ?_⟩
  intro ext mp cells bd s dict f plot nq nq' S₁ S₁' S₂ S₂' D₁ D₂ h₁ h₂ hD₁ hD₂ bdv
  obtain ⟨rfl, hT⟩ := combined_tables hA h₁ h₂ hD₁ hD₂
  obtain ⟨e, hT'⟩ := combined_tables hA' h₂ h₁ hD₂ hD₁
  cases e
  obtain ⟨pt₁, k₁⟩ := shaped_modelData (s := { s with feOrder := o, feType := t }) h₁ hD₁ bdv
  obtain ⟨pt₂, k₂⟩ := shaped_modelData (s := { s with feOrder := o, feType := t' }) h₂ hD₂ bdv
  refine ⟨pt₁, pt₂, k₁, k₂, fun a u b r => ?_⟩
  have p₁ := pdeLoss_nonneg' (modelDataOf D₁ bdv S₁.nCells) pt₁ u (fun k q => a (pt₁ k q)) b r
  have p₂ := pdeLoss_nonneg' (modelDataOf D₂ bdv S₂.nCells) pt₂ u (fun k q => a (pt₂ k q)) b r
  have l₁ := combined_pdeLoss hT k₁ k₂ a u b r
  have l₂ := combined_pdeLoss hT' k₂ k₁ a u b r
  refine ⟨p₁, p₂, l₁.trans (mul_le_mul_of_nonneg_right (by linarith) p₂),
    l₂.trans (mul_le_mul_of_nonneg_right (by linarith) p₁)⟩

/-- **C117** (`DenseModel`).  For every order and two families that vanish on the boundary there is a factor `k` such that
for all meshes, quadrature rules, equations and networks: training steps on the two spaces with the same boundary data
succeed alike, their boundary losses are equal, and their PDE losses and (for `beta ≥ 0`) total losses are within the
factor `k` of each other; one is zero exactly if the other is. -/
theorem C117_dense (o : ℤ) (t t' : String) (ht : BubbleType t) (ht' : BubbleType t') :
    ∃ k : ℝ, 1 ≤ k ∧ ∀
      {ext : QuadRoutines} {mp : List (ℝ × ℝ)} {cells : List Quad} {bd : BdDict} {s : FESettings}
      {dict : List (ℤ × (ℝ → ℝ → ℝ))} {f : ℝ → ℝ → ℝ} {plot : Bool} {nq nq' : ℕ}
      {S₁ S₁' : Fespace2D (ℝ → ℝ → ℝ) ℝ (o.toNat ^ 2) nq} {S₂ S₂' : Fespace2D (ℝ → ℝ → ℝ) ℝ (o.toNat ^ 2) nq'}
      {D₁ : DataHandler2D (o.toNat ^ 2) nq} {D₂ : DataHandler2D (o.toNat ^ 2) nq'},
      fespace2D ext mp cells bd { s with feOrder := o, feType := t } dict f plot = .ok ⟨nq, S₁⟩ →
      fespace2D ext mp cells bd { s with feOrder := o, feType := t' } dict f plot = .ok ⟨nq', S₂⟩ →
      dataHandler2D S₁ true = .ok (D₁, S₁') → dataHandler2D S₂ true = .ok (D₂, S₂') →
      ∀ (bdv : List (ℝ × ℝ) × List ℝ) (kind : LossKind) (_ : kind.forward) (p : ParamDict) (net : Network 1)
        (u : ℝ × ℝ → ℝ) (_ : RowWise net (fun _ => u)) (beta : ℝ),
      ((∃ o, trainStepDense (lossOf kind _ _ _) (modelDataOf D₁ bdv S₁.nCells) net beta p = .ok o) ↔
        ∃ o, trainStepDense (lossOf kind _ _ _) (modelDataOf D₂ bdv S₂.nCells) net beta p = .ok o) ∧
      ∀ o₁ o₂, trainStepDense (lossOf kind _ _ _) (modelDataOf D₁ bdv S₁.nCells) net beta p = .ok o₁ →
        trainStepDense (lossOf kind _ _ _) (modelDataOf D₂ bdv S₂.nCells) net beta p = .ok o₂ →
        o₁.lossDirichlet 0 = o₂.lossDirichlet 0 ∧ Comparable k o₁.lossPde o₂.lossPde ∧
        (0 ≤ beta → Comparable k (o₁.loss 0) (o₂.loss 0)) := by
  obtain ⟨k, hk1, hle⟩ := comparable_losses o t t' ht ht'
  refine ⟨k, hk1, ?_⟩
  intro ext mp cells bd s dict f plot nq nq' S₁ S₁' S₂ S₂' D₁ D₂ h₁ h₂ hD₁ hD₂ bdv kind hk p net u hnet beta
  obtain ⟨pt₁, pt₂, k₁, k₂, hle⟩ := hle h₁ h₂ hD₁ hD₂ bdv
  obtain ⟨i₁, c₁⟩ := C47_dense _ pt₁ k₁ beta p kind hk net (fun _ => u) hnet
  obtain ⟨i₂, c₂⟩ := C47_dense _ pt₂ k₂ beta p kind hk net (fun _ => u) hnet
  constructor
  · rw [i₁, i₂]
    constructor
    · rintro ⟨a, b, r, h⟩
      obtain ⟨e, -, he⟩ := coefficients_constant hk h
      exact ⟨_, b, r, he _ _⟩
    · rintro ⟨a, b, r, h⟩
      obtain ⟨e, -, he⟩ := coefficients_constant hk h
      exact ⟨_, b, r, he _ _⟩
  · intro o₁ o₂ ho₁ ho₂
    obtain ⟨a, b, r, hc, e1, e2, e3, -⟩ := c₁ o₁ ho₁
    obtain ⟨a', b', r', hc', e1', e2', e3', -⟩ := c₂ o₂ ho₂
    obtain ⟨e, rfl, he⟩ := coefficients_constant hk hc
    obtain ⟨rfl, rfl, rfl⟩ := coefficients_unique hc' (he _ _)
    have hb : o₁.lossDirichlet 0 = o₂.lossDirichlet 0 := e2.trans e2'.symm
    have hP := hle (fun _ => e) u b' r'
    rw [← e1, ← e1'] at hP
    refine ⟨hb, hP, fun hβ => comparable_of hk1 e3 (by rw [e3', hb]) ?_ hP⟩
    rw [e2]
    exact mul_nonneg hβ (meanSq_nonneg _)

/-- **C117** (`DenseModel_Hard`). -/
theorem C117_hard (o : ℤ) (t t' : String) (ht : BubbleType t) (ht' : BubbleType t') :
    ∃ k : ℝ, 1 ≤ k ∧ ∀
      {ext : QuadRoutines} {mp : List (ℝ × ℝ)} {cells : List Quad} {bd : BdDict} {s : FESettings}
      {dict : List (ℤ × (ℝ → ℝ → ℝ))} {f : ℝ → ℝ → ℝ} {plot : Bool} {nq nq' : ℕ}
      {S₁ S₁' : Fespace2D (ℝ → ℝ → ℝ) ℝ (o.toNat ^ 2) nq} {S₂ S₂' : Fespace2D (ℝ → ℝ → ℝ) ℝ (o.toNat ^ 2) nq'}
      {D₁ : DataHandler2D (o.toNat ^ 2) nq} {D₂ : DataHandler2D (o.toNat ^ 2) nq'},
      fespace2D ext mp cells bd { s with feOrder := o, feType := t } dict f plot = .ok ⟨nq, S₁⟩ →
      fespace2D ext mp cells bd { s with feOrder := o, feType := t' } dict f plot = .ok ⟨nq', S₂⟩ →
      dataHandler2D S₁ true = .ok (D₁, S₁') → dataHandler2D S₂ true = .ok (D₂, S₂') →
      ∀ (bdv : List (ℝ × ℝ) × List ℝ) (kind : LossKind) (_ : kind.forward) (p : ParamDict) (net : Network 1)
        (u : ℝ × ℝ → ℝ) (_ : RowWise net (fun _ => u)) (beta : ℝ),
      ((∃ o, trainStepHard (lossOf kind _ _ _) (modelDataOf D₁ bdv S₁.nCells) net beta p = .ok o) ↔
        ∃ o, trainStepHard (lossOf kind _ _ _) (modelDataOf D₂ bdv S₂.nCells) net beta p = .ok o) ∧
      ∀ o₁ o₂, trainStepHard (lossOf kind _ _ _) (modelDataOf D₁ bdv S₁.nCells) net beta p = .ok o₁ →
        trainStepHard (lossOf kind _ _ _) (modelDataOf D₂ bdv S₂.nCells) net beta p = .ok o₂ →
        Comparable k o₁.loss o₂.loss := by
  obtain ⟨k, hk1, hle⟩ := comparable_losses o t t' ht ht'
  refine ⟨k, hk1, ?_⟩
  intro ext mp cells bd s dict f plot nq nq' S₁ S₁' S₂ S₂' D₁ D₂ h₁ h₂ hD₁ hD₂ bdv kind hk p net u hnet beta
  obtain ⟨pt₁, pt₂, k₁, k₂, hle⟩ := hle h₁ h₂ hD₁ hD₂ bdv
  obtain ⟨i₁, c₁⟩ := C47_hard _ pt₁ k₁ beta p kind hk net (fun _ => u) hnet
  obtain ⟨i₂, c₂⟩ := C47_hard _ pt₂ k₂ beta p kind hk net (fun _ => u) hnet
  constructor
  · rw [i₁, i₂]
    constructor
    · rintro ⟨a, b, r, h⟩
      obtain ⟨e, -, he⟩ := coefficients_constant hk h
      exact ⟨_, b, r, he _ _⟩
    · rintro ⟨a, b, r, h⟩
      obtain ⟨e, -, he⟩ := coefficients_constant hk h
      exact ⟨_, b, r, he _ _⟩
  · intro o₁ o₂ ho₁ ho₂
    obtain ⟨-, a, b, r, hc, e1, -, e3, -⟩ := c₁ o₁ ho₁
    obtain ⟨-, a', b', r', hc', e1', -, e3', -⟩ := c₂ o₂ ho₂
    obtain ⟨e, rfl, he⟩ := coefficients_constant hk hc
    obtain ⟨rfl, rfl, rfl⟩ := coefficients_unique hc' (he _ _)
    have hP := hle (fun _ => e) u b' r'
    rw [← e1, ← e1', ← e3, ← e3'] at hP
    exact hP

/-- **C117** (`DenseModel_Inverse`), for the same sensor data and the same value of the unknown coefficient. -/
theorem C117_inverse (o : ℤ) (t t' : String) (ht : BubbleType t) (ht' : BubbleType t') :
    ∃ k : ℝ, 1 ≤ k ∧ ∀
      {ext : QuadRoutines} {mp : List (ℝ × ℝ)} {cells : List Quad} {bd : BdDict} {s : FESettings}
      {dict : List (ℤ × (ℝ → ℝ → ℝ))} {f : ℝ → ℝ → ℝ} {plot : Bool} {nq nq' : ℕ}
      {S₁ S₁' : Fespace2D (ℝ → ℝ → ℝ) ℝ (o.toNat ^ 2) nq} {S₂ S₂' : Fespace2D (ℝ → ℝ → ℝ) ℝ (o.toNat ^ 2) nq'}
      {D₁ : DataHandler2D (o.toNat ^ 2) nq} {D₂ : DataHandler2D (o.toNat ^ 2) nq'},
      fespace2D ext mp cells bd { s with feOrder := o, feType := t } dict f plot = .ok ⟨nq, S₁⟩ →
      fespace2D ext mp cells bd { s with feOrder := o, feType := t' } dict f plot = .ok ⟨nq', S₂⟩ →
      dataHandler2D S₁ true = .ok (D₁, S₁') → dataHandler2D S₂ true = .ok (D₂, S₂') →
      ∀ (bdv : List (ℝ × ℝ) × List ℝ) {nS : ℕ} (sp : Fin nS → ℝ × ℝ) (sv : Fin nS → ℝ) (p ip : ParamDict)
        (net : Network 1) (u : ℝ × ℝ → ℝ) (_ : RowWise net (fun _ => u)) (beta : ℝ),
      ((∃ o, trainStepInverse (lossPoissonInverse _ _ _) (modelDataOf D₁ bdv S₁.nCells) sp sv ip net beta p = .ok o) ↔
        ∃ o, trainStepInverse (lossPoissonInverse _ _ _) (modelDataOf D₂ bdv S₂.nCells) sp sv ip net beta p = .ok o) ∧
      ∀ o₁ o₂,
        trainStepInverse (lossPoissonInverse _ _ _) (modelDataOf D₁ bdv S₁.nCells) sp sv ip net beta p = .ok o₁ →
        trainStepInverse (lossPoissonInverse _ _ _) (modelDataOf D₂ bdv S₂.nCells) sp sv ip net beta p = .ok o₂ →
        o₁.lossDirichlet 0 = o₂.lossDirichlet 0 ∧ o₁.sensorLoss 0 = o₂.sensorLoss 0 ∧
        Comparable k o₁.lossPde o₂.lossPde ∧ (0 ≤ beta → Comparable k (o₁.loss 0) (o₂.loss 0)) := by
  obtain ⟨k, hk1, hle⟩ := comparable_losses o t t' ht ht'
  refine ⟨k, hk1, ?_⟩
  intro ext mp cells bd s dict f plot nq nq' S₁ S₁' S₂ S₂' D₁ D₂ h₁ h₂ hD₁ hD₂ bdv nS sp sv p ip net u hnet beta
  obtain ⟨pt₁, pt₂, k₁, k₂, hle⟩ := hle h₁ h₂ hD₁ hD₂ bdv
  obtain ⟨i₁, c₁⟩ := C47_inverse _ pt₁ k₁ beta p ip sp sv net (fun _ => u) hnet
  obtain ⟨i₂, c₂⟩ := C47_inverse _ pt₂ k₂ beta p ip sp sv net (fun _ => u) hnet
  refine ⟨i₁.trans i₂.symm, fun o₁ o₂ ho₁ ho₂ => ?_⟩
  obtain ⟨e, he, e1, e2, e3, -, e4, -⟩ := c₁ o₁ ho₁
  obtain ⟨e', he', e1', e2', e3', -, e4', -⟩ := c₂ o₂ ho₂
  obtain rfl := hasParam_unique he he'
  have hb : o₁.lossDirichlet 0 = o₂.lossDirichlet 0 := e2.trans e2'.symm
  have hs : o₁.sensorLoss 0 = o₂.sensorLoss 0 := e3.trans e3'.symm
  have hP := hle (fun _ => e) u (0, 0) 0
  rw [← e1, ← e1'] at hP
  refine ⟨hb, hs, hP, fun hβ => ?_⟩
  refine comparable_of hk1 (e4.trans (add_assoc _ _ _)) (by rw [e4', hb, hs, add_assoc]) ?_ hP
  rw [e2, e3]
  have := mul_nonneg hβ (meanSq_nonneg fun i => u ((modelDataOf D₁ bdv S₁.nCells).dirichletInput i)
    - (modelDataOf D₁ bdv S₁.nCells).dirichletActual i)
  have := meanSq_nonneg fun i => u (sp i) - sv i
  linarith

/-- **C117** (`DenseModel_Inverse_Domain`), for the same sensor data. -/
theorem C117_inverse_domain (o : ℤ) (t t' : String) (ht : BubbleType t) (ht' : BubbleType t') :
    ∃ k : ℝ, 1 ≤ k ∧ ∀
      {ext : QuadRoutines} {mp : List (ℝ × ℝ)} {cells : List Quad} {bd : BdDict} {s : FESettings}
      {dict : List (ℤ × (ℝ → ℝ → ℝ))} {f : ℝ → ℝ → ℝ} {plot : Bool} {nq nq' : ℕ}
      {S₁ S₁' : Fespace2D (ℝ → ℝ → ℝ) ℝ (o.toNat ^ 2) nq} {S₂ S₂' : Fespace2D (ℝ → ℝ → ℝ) ℝ (o.toNat ^ 2) nq'}
      {D₁ : DataHandler2D (o.toNat ^ 2) nq} {D₂ : DataHandler2D (o.toNat ^ 2) nq'},
      fespace2D ext mp cells bd { s with feOrder := o, feType := t } dict f plot = .ok ⟨nq, S₁⟩ →
      fespace2D ext mp cells bd { s with feOrder := o, feType := t' } dict f plot = .ok ⟨nq', S₂⟩ →
      dataHandler2D S₁ true = .ok (D₁, S₁') → dataHandler2D S₂ true = .ok (D₂, S₂') →
      ∀ (bdv : List (ℝ × ℝ) × List ℝ) {nS : ℕ} (sp : Fin nS → ℝ × ℝ) (sv : Fin nS → ℝ) (p : ParamDict) {dout : ℕ}
        (_ : 2 ≤ dout) (net : Network dout) (u : Fin dout → ℝ × ℝ → ℝ) (_ : RowWise net u) (beta : ℝ),
      ((∃ o, trainStepInverseDomain (lossCd2dInverseDomain _ _ _) (modelDataOf D₁ bdv S₁.nCells) sp sv net beta p
          = .ok o) ↔
        ∃ o, trainStepInverseDomain (lossCd2dInverseDomain _ _ _) (modelDataOf D₂ bdv S₂.nCells) sp sv net beta p
          = .ok o) ∧
      ∀ o₁ o₂,
        trainStepInverseDomain (lossCd2dInverseDomain _ _ _) (modelDataOf D₁ bdv S₁.nCells) sp sv net beta p = .ok o₁ →
        trainStepInverseDomain (lossCd2dInverseDomain _ _ _) (modelDataOf D₂ bdv S₂.nCells) sp sv net beta p = .ok o₂ →
        o₁.lossDirichlet 0 = o₂.lossDirichlet 0 ∧ o₁.sensorLoss 0 = o₂.sensorLoss 0 ∧
        Comparable k o₁.lossPde o₂.lossPde ∧ (0 ≤ beta → Comparable k (o₁.loss 0) (o₂.loss 0)) := by
  obtain ⟨k, hk1, hle⟩ := comparable_losses o t t' ht ht'
  refine ⟨k, hk1, ?_⟩
  intro ext mp cells bd s dict f plot nq nq' S₁ S₁' S₂ S₂' D₁ D₂ h₁ h₂ hD₁ hD₂ bdv nS sp sv p dout hd net u hnet beta
  obtain ⟨pt₁, pt₂, k₁, k₂, hle⟩ := hle h₁ h₂ hD₁ hD₂ bdv
  obtain ⟨i₁, c₁⟩ := C47_inverse_domain _ pt₁ k₁ beta p sp sv hd net u hnet
  obtain ⟨i₂, c₂⟩ := C47_inverse_domain _ pt₂ k₂ beta p sp sv hd net u hnet
  refine ⟨i₁.trans i₂.symm, fun o₁ o₂ ho₁ ho₂ => ?_⟩
  obtain ⟨x, y, r, q1, q2, q3, e1, e2, e3, e4, -⟩ := c₁ o₁ ho₁
  obtain ⟨x', y', r', q1', q2', q3', e1', e2', e3', e4', -⟩ := c₂ o₂ ho₂
  obtain rfl := hasParam_unique q1 q1'
  obtain rfl := hasParam_unique q2 q2'
  obtain rfl := hasParam_unique q3 q3'
  have hb : o₁.lossDirichlet 0 = o₂.lossDirichlet 0 := e2.trans e2'.symm
  have hs : o₁.sensorLoss 0 = o₂.sensorLoss 0 := e3.trans e3'.symm
  have hP := hle (u ⟨1, by omega⟩) (u ⟨0, by omega⟩) (x, y) r
  rw [← e1, ← e1'] at hP
  refine ⟨hb, hs, hP, fun hβ => ?_⟩
  refine comparable_of hk1 (e4.trans (add_assoc _ _ _)) (by rw [e4', hb, hs, add_assoc]) ?_ hP
  rw [e2, e3]
  have g1 := mul_nonneg hβ (meanSq_nonneg fun i => u ⟨0, by omega⟩ ((modelDataOf D₁ bdv S₁.nCells).dirichletInput i)
    - (modelDataOf D₁ bdv S₁.nCells).dirichletActual i)
  have g2 := meanSq_nonneg fun i => u ⟨0, by omega⟩ (sp i) - sv i
  linarith

/-- The demo space for the families. -/
lemma demo_family (t : String) (ht : BubbleType t) (ext : QuadRoutines) (f : ℝ → ℝ → ℝ) :
    ∃ nq, ∃ S : Fespace2D (ℝ → ℝ → ℝ) ℝ ((3 : ℤ).toNat ^ 2) nq,
      fespace2D ext [(0, 0), (1, 1)] demoCells demoBoundary { demoSettings "bilinear" with feOrder := 3, feType := t }
        demoDict f false = .ok ⟨nq, S⟩ :=
  (C63_constructor ext [(0, 0), (1, 1)] demoCells demoBoundary
    { demoSettings "bilinear" with feOrder := 3, feType := t } demoDict
    f).2 ⟨rfl, by simp [demoCells], by norm_num, by
        rcases ht with (rfl | rfl | rfl) | rfl <;> simp [supportedFeType], by simp [demoSettings], Or.inl rfl,
      Or.inl rfl, by
        intro e he _
        simp only [demoBoundary, List.mem_cons, List.not_mem_nil, or_false] at he
        rcases he with rfl | rfl
        · exact ⟨fun x y => x * y, rfl⟩
        · exact ⟨fun x _ => x, rfl⟩⟩

/-- The hypotheses of C117 are met on the demo mesh with `legendre` and `chebyshev_2`, for the network `(x, y) ↦ x² y`
and the Poisson loss: both training steps succeed. -/
example : ∃ k : ℝ, ∀ ext : QuadRoutines, ∃ nq, ∃ S₁ : Fespace2D (ℝ → ℝ → ℝ) ℝ ((3 : ℤ).toNat ^ 2) nq,
    ∃ D₁ : DataHandler2D ((3 : ℤ).toNat ^ 2) nq, ∃ nq',
    ∃ S₂ : Fespace2D (ℝ → ℝ → ℝ) ℝ ((3 : ℤ).toNat ^ 2) nq',
    ∃ D₂ : DataHandler2D ((3 : ℤ).toNat ^ 2) nq', ∃ o₁ o₂,
    trainStepDense (lossOf .poisson _ _ _) (modelDataOf D₁ ([(0, 0)], [1]) S₁.nCells)
        (fun _ X r (_ : Fin 1) => (X r).1 ^ 2 * (X r).2) 10 (some [("eps", 1)]) = .ok o₁ ∧
    trainStepDense (lossOf .poisson _ _ _) (modelDataOf D₂ ([(0, 0)], [1]) S₂.nCells)
        (fun _ X r (_ : Fin 1) => (X r).1 ^ 2 * (X r).2) 10 (some [("eps", 1)]) = .ok o₂ ∧
    o₁.loss 0 ≤ k * o₂.loss 0 ∧ o₂.loss 0 ≤ k * o₁.loss 0 := by
  obtain ⟨k, -, h⟩ := C117_dense 3 "legendre" "chebyshev_2" (.inl (.inl rfl)) (.inr rfl)
  refine ⟨k, fun ext => ?_⟩
  obtain ⟨nq, S₁, h₁⟩ := demo_family "legendre" (.inl (.inl rfl)) ext fun x _ => x
  obtain ⟨nq', S₂, h₂⟩ := demo_family "chebyshev_2" (.inr rfl) ext fun x _ => x
  obtain ⟨-, D₁, S₁', hD₁, -⟩ := C41_layout ext _ _ _
    { demoSettings "bilinear" with feOrder := 3, feType := "legendre" } _ _ _ S₁ h₁
  obtain ⟨-, D₂, S₂', hD₂, -⟩ := C41_layout ext _ _ _
    { demoSettings "bilinear" with feOrder := 3, feType := "chebyshev_2" } _ _ _ S₂ h₂
  obtain ⟨hi, h⟩ := h h₁ h₂ hD₁ hD₂ ([(0, 0)], [1]) .poisson (Or.inl rfl) (some [("eps", 1)])
    (fun _ X r (_ : Fin 1) => (X r).1 ^ 2 * (X r).2) (fun z => z.1 ^ 2 * z.2) (fun _ _ _ _ => rfl) 10
  obtain ⟨pt, hsh⟩ := shaped_modelData (s := { demoSettings "bilinear" with feOrder := 3, feType := "legendre" }) h₁ hD₁
    ([(0, 0)], [1])
  obtain ⟨o₁, ho₁⟩ := (C47_dense _ pt hsh 10 (some [("eps", 1)]) .poisson (Or.inl rfl)
    (fun _ X r (_ : Fin 1) => (X r).1 ^ 2 * (X r).2) (fun _ z => z.1 ^ 2 * z.2) (fun _ _ _ _ => rfl)).1.2
      ⟨_, _, _, 1, ⟨_, rfl, rfl⟩, rfl, rfl, rfl⟩
  obtain ⟨o₂, ho₂⟩ := hi.1 ⟨o₁, ho₁⟩
  exact ⟨nq, S₁, D₁, nq', S₂, D₂, o₁, o₂, ho₁, ho₂, ((h o₁ o₂ ho₁ ho₂).2.2 (by norm_num)).2.2⟩

/-- C117: two of the three parameters of `test_poisson_accuracy_fetype_quadtype` (`test_accuracy_poisson.py:206`). -/
example (mc : Machine) (sample : Fin 4 → Fin (500 / 4) → ℝ) (θ : Weights) (files : Files) (epochs : ℕ) (qt : String) :
    accuracyUniform mc testPoisson (testSquare 8 epochs "legendre_special" qt "tanh" "float32" false) 6e-2 false
        sample θ files
      = accuracyUniform mc testPoisson (testSquare 8 epochs "jacobi" qt "tanh" "float32" false) 6e-2 false
        sample θ files :=
  (C117_accuracy_tests mc testPoisson (testSquare 8 epochs "" qt "tanh" "float32" false) 6e-2 "legendre_special"
    "jacobi" (.inr (.inr rfl)) (.inr (.inl rfl)) θ files).1 false sample

end FastVPINNs
