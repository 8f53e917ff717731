import Verif.Model.Transformation
import Verif.Lemmas.Transformation
import Verif.Props.CellGeometry
import Verif.Props.AccuracyTests

/-! # C115: affine and bilinear transformation on parallelograms and on other cells -/

namespace FastVPINNs

open Spec

/-- **C115** (parallelograms).  If all cells are parallelograms that are not degenerate, the affine and the bilinear
space are accepted or rejected alike, with the same exception, report the same tables, and give data handlers that hold
the same tensors and boundary data.  (The tables of second derivatives, which no accessor reports, differ.) -/
theorem C115_data {V : Type} (ext : QuadRoutines) (mp : List (ℝ × ℝ)) (cells : List Quad) (bd : BdDict)
    (s : FESettings) (dict : List (ℤ × (ℝ → ℝ → V))) (f : ℝ → ℝ → ℝ) (plot : Bool)
    (hc : ∀ c ∈ cells, IsParallelogram c ∧ cross (c 0) (c 1) (c 3) ≠ 0) :
    (∀ e, fespace2D ext mp cells bd { s with feTransformationType := "affine" } dict f plot = .error e ↔
      fespace2D ext mp cells bd { s with feTransformationType := "bilinear" } dict f plot = .error e) ∧
    ∀ (nq : ℕ) (S : Fespace2D (ℝ → ℝ → ℝ) V (s.feOrder.toNat ^ 2) nq),
      fespace2D ext mp cells bd { s with feTransformationType := "affine" } dict f plot = .ok ⟨nq, S⟩ →
      ∃ S' : Fespace2D (ℝ → ℝ → ℝ) V (s.feOrder.toNat ^ 2) nq,
        fespace2D ext mp cells bd { s with feTransformationType := "bilinear" } dict f plot = .ok ⟨nq, S'⟩ ∧
        SameTables S S' ∧ ∀ isTf,
          (∀ e, dataHandler2D S isTf = .error e ↔ dataHandler2D S' isTf = .error e) ∧
          ∀ D S₁, dataHandler2D S isTf = .ok (D, S₁) → ∃ S₁', dataHandler2D S' isTf = .ok (D, S₁') ∧
            S₁.nCells = S₁'.nCells ∧ S₁.boundaryPoints = S₁'.boundaryPoints ∧
            S₁.boundFunctionDict = S₁'.boundFunctionDict := by
  have hr := fespace_same ext mp cells bd s dict f plot hc
  generalize ha : fespace2D ext mp cells bd { s with feTransformationType := "affine" } dict f plot = a at hr
  generalize hb : fespace2D ext mp cells bd { s with feTransformationType := "bilinear" } dict f plot = b at hr
  refine ⟨fun e => ?_, fun nq S h => ?_⟩
  · obtain _ | _ := hr <;> simp
  · obtain _ | ⟨nq', S₂, S', rfl, rfl, hS⟩ := hr
    · cases h
    cases h
    refine ⟨S', rfl, tables_same hS, fun isTf => ?_⟩
    have hd := dataHandler_same hS isTf
    generalize dataHandler2D S isTf = a at hd
    generalize dataHandler2D S' isTf = b at hd
    refine ⟨fun e => ?_, fun D S₁ h => ?_⟩
    · obtain _ | _ := hd <;> simp
    · obtain _ | ⟨h1, h2⟩ := hd
      · cases h
      cases h
      rename_i b
      obtain ⟨D', S₁'⟩ := b
      simp only at h1 h2
      subst h1
      exact ⟨S₁', rfl, h2.nCells, h2.points, h2.dict⟩

/-- **C115** (other cells).  On a cell that is not a parallelogram the two transformations always report different
quadrature points: they agree exactly on parallelograms. -/
theorem C115_points {F V : Type} (ext : QuadRoutines) (mp : List (ℝ × ℝ)) (cells : List Quad) (bd : BdDict)
    (s : FESettings) (dict : List (ℤ × (ℝ → ℝ → V))) (f : F) (plot : Bool) {nq : ℕ}
    (S S' : Fespace2D F V (s.feOrder.toNat ^ 2) nq)
    (ha : fespace2D ext mp cells bd { s with feTransformationType := "affine" } dict f plot = .ok ⟨nq, S⟩)
    (hb : fespace2D ext mp cells bd { s with feTransformationType := "bilinear" } dict f plot = .ok ⟨nq, S'⟩)
    (hr : RoutinesOK ext s.quadOrder s.quadType) (k : ℕ) (c : Quad) (hk : cells[k]? = some c) :
    S.getQuadratureActualCoordinates k = S'.getQuadratureActualCoordinates k ↔ IsParallelogram c := by
  obtain ⟨-, B, wt, xi, eta, hB, hR, hcell⟩ := fespace_cell ha
  obtain ⟨-, B', wt', xi', eta', hB', hR', hcell'⟩ := fespace_cell hb
  simp only at hR hR'
  rw [hR] at hR'
  simp only [Except.ok.injEq, QuadRule2D.mk.injEq, heq_eq_eq, true_and] at hR'
  obtain ⟨rfl, rfl, rfl⟩ := hR'
  obtain ⟨T, fc, hT, hfc, -, facts⟩ := hcell k c hk
  obtain ⟨T', fc', hT', hfc', -, facts'⟩ := hcell' k c hk
  have hfc := (cellAt_nat S k fc).2 hfc
  have hfc' := (cellAt_nat S' k fc').2 hfc'
  simp only [Fespace2D.getQuadratureActualCoordinates, hfc, hfc', Except.ok.injEq]
  obtain ⟨-, rfl⟩ | ⟨h1, -⟩ := assignFe_ok hT
  swap
  · exact absurd h1 (by simp)
  obtain ⟨h1, -⟩ | ⟨-, rfl⟩ := assignFe_ok hT'
  · exact absurd h1 (by simp)
  obtain ⟨n, x, w, hQ, hn, hten, hex, -, hpos, hx⟩ := rule_facts hR hr
  constructor
  · intro h
    have hne : ∃ p, (1 + xi p) * (1 + eta p) ≠ 0 := by
      by_contra hall
      push Not at hall
      have h4 := rule_bilinear hten (by omega) hex 1 1
      simp only [one_mul] at h4
      simp only [hall, mul_zero, Finset.sum_const_zero] at h4
      norm_num at h4
    obtain ⟨p, hp⟩ := hne
    have hpt := congrFun h p
    rw [facts.point, facts'.point] at hpt
    have h1 := congrArg Prod.fst hpt
    have h2 := congrArg Prod.snd hpt
    simp only [quadAffin, quadBilinear, QuadAffin.getOriginalFromRef, QuadBilinear.getOriginalFromRef,
      QuadAffin.xc0, QuadAffin.xc1, QuadAffin.xc2, QuadAffin.yc0, QuadAffin.yc1, QuadAffin.yc2,
      QuadBilinear.xc0, QuadBilinear.xc1, QuadBilinear.xc2, QuadBilinear.xc3,
      QuadBilinear.yc0, QuadBilinear.yc1, QuadBilinear.yc2, QuadBilinear.yc3] at h1 h2
    have k1 : ((c 0).1 - (c 1).1 + (c 2).1 - (c 3).1) * ((1 + xi p) * (1 + eta p)) = 0 := by
      linear_combination (-4) * h1
    have k2 : ((c 0).2 - (c 1).2 + (c 2).2 - (c 3).2) * ((1 + xi p) * (1 + eta p)) = 0 := by
      linear_combination (-4) * h2
    have e1 := (mul_eq_zero.1 k1).resolve_right hp
    have e2 := (mul_eq_zero.1 k2).resolve_right hp
    refine Prod.ext ?_ ?_
    · simp only [Prod.fst_sub]; linarith
    · simp only [Prod.snd_sub]; linarith
  · intro h
    funext p
    rw [facts.point, facts'.point]
    exact (((C29_affine_vs_bilinear c _ _ (by simp [assignFeTransformation]) (by simp [assignFeTransformation])).1 h).1
      _ _).1

/-! ### Internal meshes -/

lemma internal_parallelogram (g : Geometry2D) (x y : ℝ × ℝ) (hx : x.1 < x.2) (hy : y.1 < y.2) (nx ny nb : ℕ)
    (smp : Fin 4 → Fin (nb / 4) → ℝ) :
    ∀ c ∈ (generateQuadMeshInternal g x y nx ny nb smp).cells, IsParallelogram c ∧ cross (c 0) (c 1) (c 3) ≠ 0 := by
  intro c hc
  obtain ⟨k, hk, rfl⟩ := List.getElem_of_mem hc
  have hlen := (C02_internal_cells g x y hx hy nx ny nb smp).1
  obtain ⟨h1, h2, h3⟩ := mem_internal_cells g x y hx hy nx ny nb smp k (by omega)
  rw [List.getElem?_eq_getElem hk, Option.some.injEq] at h3
  rw [h3]
  refine ⟨by simp [IsParallelogram, gridCell, rectangle], ?_⟩
  have g1 := gridLine_lt hx (n := nx) (by have := Nat.zero_le (k / ny); omega) (Nat.lt_succ_self (k / ny))
  have g2 := gridLine_lt hy (n := ny) (by omega) (Nat.lt_succ_self (k % ny))
  simp only [cross, gridCell, rectangle, Matrix.cons_val_zero, Matrix.cons_val_one, Matrix.cons_val]
  apply ne_of_gt
  nlinarith [mul_pos (sub_pos.2 g1) (sub_pos.2 g2)]

/-- The steps of a script up to the model do not depend on the transformation if the cells are parallelograms. -/
lemma prepareModelWith_affine (mc : Machine) (cfg : ForwardConfig) (pb : Problem) (layerDims : List ℕ)
    (lrFn : List (String × PyVal) → Except PyErr LearningRate) (o : GeometryObject) (files : Files)
    (cells : List Quad) (bd : BdDict) (hc : ∀ c ∈ cells, IsParallelogram c ∧ cross (c 0) (c 1) (c 3) ≠ 0) :
    prepareModelWith "affine" mc cfg pb layerDims lrFn o files cells bd
      = prepareModel mc cfg pb layerDims lrFn o files cells bd := by
  have hr := fespace_same mc.quad ((o.mesh.map StoredMesh.planePoints).getD []) cells bd
    ⟨o.meshType, cfg.feOrder, cfg.feType, cfg.quadOrder, cfg.quadType, ""⟩ pb.boundaryFunctionDict pb.rhs
    cfg.generateMeshPlot hc
  unfold prepareModelWith prepareModel
  simp only at hr ⊢
  generalize fespace2D mc.quad ((o.mesh.map StoredMesh.planePoints).getD []) cells bd
    ⟨o.meshType, cfg.feOrder, cfg.feType, cfg.quadOrder, cfg.quadType, "affine"⟩ pb.boundaryFunctionDict pb.rhs
    cfg.generateMeshPlot = a at hr ⊢
  generalize fespace2D mc.quad ((o.mesh.map StoredMesh.planePoints).getD []) cells bd
    ⟨o.meshType, cfg.feOrder, cfg.feType, cfg.quadOrder, cfg.quadType, "bilinear"⟩ pb.boundaryFunctionDict pb.rhs
    cfg.generateMeshPlot = b at hr ⊢
  obtain _ | ⟨nq, S, S', rfl, rfl, hS⟩ := hr
  · rfl
  simp only
  have hd := dataHandler_same hS true
  generalize dataHandler2D S true = a at hd ⊢
  generalize dataHandler2D S' true = b at hd ⊢
  obtain _ | ⟨h1, h2⟩ := hd
  · rfl
  rename_i a b
  obtain ⟨D, S₁⟩ := a
  obtain ⟨D', S₁'⟩ := b
  simp only at h1 h2 ⊢
  subst h1
  rw [getDirichletInput_same h2, h2.nCells]
  cases getDirichletInput S₁' with
  | error e => rfl
  | ok bdv =>
    cases lrFn cfg.learningRate with
    | error e => rfl
    | ok lr =>
      cases layerSpecs layerDims cfg.activation with
      | error e => rfl
      | ok specs => cases pyIndex layerDims 0 <;> rfl

lemma prepareModelWith_bilinear (mc : Machine) (cfg : ForwardConfig) (pb : Problem) (layerDims : List ℕ)
    (lrFn : List (String × PyVal) → Except PyErr LearningRate) (o : GeometryObject) (files : Files)
    (cells : List Quad) (bd : BdDict) :
    prepareModelWith "bilinear" mc cfg pb layerDims lrFn o files cells bd
      = prepareModel mc cfg pb layerDims lrFn o files cells bd := by
  unfold prepareModelWith prepareModel
  cases fespace2D mc.quad ((o.mesh.map StoredMesh.planePoints).getD []) cells bd
    ⟨o.meshType, cfg.feOrder, cfg.feType, cfg.quadOrder, cfg.quadType, "bilinear"⟩ pb.boundaryFunctionDict pb.rhs
    cfg.generateMeshPlot with
  | error e => rfl
  | ok S =>
    obtain ⟨nq, S⟩ := S
    simp only
    cases dataHandler2D S true with
    | error e => rfl
    | ok D =>
      simp only
      cases getDirichletInput D.2 with
      | error e => rfl
      | ok bdv =>
        cases lrFn cfg.learningRate with
        | error e => rfl
        | ok lr =>
          cases layerSpecs layerDims cfg.activation with
          | error e => rfl
          | ok specs => cases pyIndex layerDims 0 <;> rfl

/-- **C115** (scripts and tests on the rectangle).  With an internal mesh a script or test prepares the same model
whether it passes `"affine"` or `"bilinear"`: same tensors, boundary data, layers and learning rate, or the same
exception. -/
theorem C115_uniform (mc : Machine) (cfg : ForwardConfig) (pb : Problem) (layerDims : List ℕ)
    (lrFn : List (String × PyVal) → Except PyErr LearningRate)
    (sample : Fin 4 → Fin (cfg.nBoundaryPoints / 4) → ℝ) (files : Files) (hx : cfg.xMin < cfg.xMax)
    (hy : cfg.yMin < cfg.yMax) :
    ∀ t ∈ ["affine", "bilinear"], prepareUniformWith t mc cfg pb layerDims lrFn sample files
      = prepareUniform mc cfg pb layerDims lrFn sample files := by
  intro t ht
  have hmodel : ∀ o files cells bd, (∀ c ∈ cells, IsParallelogram c ∧ cross (c 0) (c 1) (c 3) ≠ 0) →
      prepareModelWith t mc cfg pb layerDims lrFn o files cells bd
        = prepareModel mc cfg pb layerDims lrFn o files cells bd := by
    intro o files cells bd hc
    simp only [List.mem_cons, List.not_mem_nil, or_false] at ht
    rcases ht with rfl | rfl
    · exact prepareModelWith_affine _ _ _ _ _ _ _ _ _ hc
    · exact prepareModelWith_bilinear _ _ _ _ _ _ _ _ _
  unfold prepareUniformWith prepareUniform
  by_cases hd : cfg.dtype ∉ ["float64", "float32"]
  · rw [if_pos hd, if_pos hd]
  rw [if_neg hd, if_neg hd]
  cases newGeometry cfg.meshType cfg.meshGenerationMethod cfg.nTestPointsX cfg.nTestPointsY cfg.outputPath false with
  | error e => rfl
  | ok o =>
    simp only
    have hcells : ∀ cells bd o' files', o.generateInternal mc.env files (cfg.xMin, cfg.xMax) (cfg.yMin, cfg.yMax)
        cfg.nCellsX cfg.nCellsY cfg.nBoundaryPoints sample = (.ok (.mesh cells bd), o', files') →
        ∀ c ∈ cells, IsParallelogram c ∧ cross (c 0) (c 1) (c 3) ≠ 0 := by
      intro cells bd o' files' h
      have := internal_parallelogram o.toGeometry2D (cfg.xMin, cfg.xMax) (cfg.yMin, cfg.yMax) hx hy cfg.nCellsX
        cfg.nCellsY cfg.nBoundaryPoints sample
      unfold GeometryObject.generateInternal at h
      simp only at h
      split_ifs at h
      · cases h; exact this
      · split at h
        · cases h
        · cases h; exact this
    generalize o.generateInternal mc.env files (cfg.xMin, cfg.xMax) (cfg.yMin, cfg.yMax) cfg.nCellsX cfg.nCellsY
      cfg.nBoundaryPoints sample = r at hcells
    obtain ⟨r, o', files'⟩ := r
    cases r with
    | error e => rfl
    | ok v =>
      cases v with
      | mesh cells bd => exact hmodel _ _ _ _ (hcells _ _ _ _ rfl)
      | _ => rfl

/-- **C115** (`test_poisson_accuracy_transformation_precision`).  The two values of the parameter `transformation` give
one and the same test: for the same random draws and initial weights it passes, fails or raises for both. -/
theorem C115_accuracy_test (mc : Machine) (pb : Problem) (cfg : ForwardConfig) (tol : ℝ) (checkRate : Bool)
    (sample : Fin 4 → Fin (cfg.nBoundaryPoints / 4) → ℝ) (θ : Weights) (files : Files) (hx : cfg.xMin < cfg.xMax)
    (hy : cfg.yMin < cfg.yMax) :
    accuracyUniformWith "affine" mc pb cfg tol checkRate sample θ files
      = accuracyUniformWith "bilinear" mc pb cfg tol checkRate sample θ files ∧
    accuracyUniformWith "bilinear" mc pb cfg tol checkRate sample θ files
      = accuracyUniform mc pb cfg tol checkRate sample θ files := by
  unfold accuracyUniformWith accuracyUniform
  rw [C115_uniform mc cfg pb _ _ sample files hx hy "affine" (by simp),
    C115_uniform mc cfg pb _ _ sample files hx hy "bilinear" (by simp)]
  exact ⟨rfl, rfl⟩

/-- C115: the two spaces exist on the unit square and the kite; on the kite their points differ, on the square not. -/
example : ∃ ext, RoutinesOK ext 5 "gauss-legendre" ∧ ∃ nq S S',
    fespace2D ext [(0, 0), (1, 1)] demoCells demoBoundary (demoSettings "affine") demoDict () false = .ok ⟨nq, S⟩ ∧
    fespace2D ext [(0, 0), (1, 1)] demoCells demoBoundary (demoSettings "bilinear") demoDict () false = .ok ⟨nq, S'⟩ ∧
    S.getQuadratureActualCoordinates (0 : ℕ) = S'.getQuadratureActualCoordinates (0 : ℕ) ∧
    S.getQuadratureActualCoordinates (1 : ℕ) ≠ S'.getQuadratureActualCoordinates (1 : ℕ) := by
  obtain ⟨ext, h1, h2⟩ := quadRoutines_exist
  have hr : RoutinesOK ext 5 "gauss-legendre" := ⟨fun _ => h1 _ (by norm_num), fun _ => h2 _⟩
  obtain ⟨nq, S, ha⟩ := demo_fespace ext () "affine" (Or.inr rfl)
  obtain ⟨nq', S', hb⟩ := demo_fespace ext () "bilinear" (Or.inl rfl)
  obtain ⟨-, B, wt, xi, eta, -, hR, -⟩ := fespace_cell ha
  obtain ⟨-, B', wt', xi', eta', -, hR', -⟩ := fespace_cell hb
  have hn : nq = nq' := congrArg QuadRule2D.num (Except.ok.inj (hR.symm.trans hR'))
  subst hn
  refine ⟨ext, hr, nq, S, S', ha, hb, ?_, ?_⟩
  · exact (C115_points ext _ demoCells demoBoundary (demoSettings "") demoDict () false S S' ha hb hr 0 (squareCell 1)
      rfl).2 (by simp [IsParallelogram, squareCell])
  · intro h
    have := (C115_points ext _ demoCells demoBoundary (demoSettings "") demoDict () false S S' ha hb hr 1 kiteCell
      rfl).1 h
    simp [IsParallelogram, kiteCell] at this

/-- C115: a parallelogram that is not a rectangle. -/
example : ∀ c ∈ [(![(0, 0), (2, 0), (3, 1), (1, 1)] : Quad)], IsParallelogram c ∧ cross (c 0) (c 1) (c 3) ≠ 0 := by
  simp only [List.mem_singleton, forall_eq]
  refine ⟨?_, ?_⟩
  · simp [IsParallelogram]; norm_num
  · simp [cross]

/-- C115: the test with `"affine"` on the machine of the examples ends for any number of epochs. -/
example (quad : QuadRoutines) (sample : Fin 4 → Fin (500 / 4) → ℝ) (θ : Weights) (epochs : ℕ) :
    ∃ passed, accuracyUniformWith "affine" (demoMachine quad) testPoisson
      (testSquare 8 epochs "jacobi" "gauss-jacobi" "tanh" "float64" false) 6e-2 false sample θ demoFiles = .ok passed := by
  obtain ⟨h1, h2⟩ := C115_accuracy_test (demoMachine quad) testPoisson
    (testSquare 8 epochs "jacobi" "gauss-jacobi" "tanh" "float64" false) 6e-2 false sample θ demoFiles
    (by simp [testSquare]) (by simp [testSquare])
  rw [h1, h2]
  exact ((C104_shipped (demoMachine quad) 6e-2 (by norm_num) epochs "float64" (.inl rfl) θ demoFiles).1 8
    "jacobi" "gauss-jacobi" "tanh" false false sample (fun _ _ _ _ => ⟨_, rfl⟩) (by norm_num) (by simp) (.inr rfl)
    (by simp)).1 testPoisson (by simp)

end FastVPINNs
