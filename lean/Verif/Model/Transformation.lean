import Verif.Model.AccuracyTests

/-! # The parameter `transformation` of the accuracy test, `tests/integration/test_accuracy_poisson.py`

`test_accuracy_poisson.py:111` runs the test with `"affine"` and with `"bilinear"`; `Model/AccuracyTests.lean` has the
second.  The definitions here are those of `Model/Driver.lean` with `fe_transformation_type` as an argument. -/

namespace FastVPINNs

/-- `test_accuracy_poisson.py:138-185`: function space, data handler, boundary data and model; `prepareModel` with
`fe_transformation_type=transformation` (line 148). -/
noncomputable def prepareModelWith (transformation : String) (mc : Machine) (cfg : ForwardConfig) (pb : Problem)
    (layerDims : List ℕ) (lrFn : List (String × PyVal) → Except PyErr LearningRate) (o : GeometryObject)
    (files : Files) (cells : List Quad) (bd : BdDict) : Except PyErr Prepared :=
  match fespace2D mc.quad ((o.mesh.map StoredMesh.planePoints).getD []) cells bd
      ⟨o.meshType, cfg.feOrder, cfg.feType, cfg.quadOrder, cfg.quadType, transformation⟩
      pb.boundaryFunctionDict pb.rhs cfg.generateMeshPlot with
  | .error e => .error e
  | .ok ⟨nq, S⟩ =>
    match dataHandler2D S true with
    | .error e => .error e
    | .ok (D, S') =>
      match getDirichletInput S' with
      | .error e => .error e
      | .ok bdv =>
        match lrFn cfg.learningRate with
        | .error e => .error e
        | .ok lr =>
          match layerSpecs layerDims cfg.activation with
          | .error e => .error e
          | .ok specs =>
            match pyIndex layerDims 0 with
            | .error e => .error e
            | .ok inDim => .ok ⟨_, nq, D, bdv, S'.nCells, inDim, specs, lr, o, files⟩

/-- `test_accuracy_poisson.py:133-185`: geometry and internal mesh (lines 133-136), then the model.  As in
`prepareUniform`, which has the steps of the scripts in the same order. -/
noncomputable def prepareUniformWith (transformation : String) (mc : Machine) (cfg : ForwardConfig) (pb : Problem)
    (layerDims : List ℕ) (lrFn : List (String × PyVal) → Except PyErr LearningRate)
    (sample : Fin 4 → Fin (cfg.nBoundaryPoints / 4) → ℝ) (files : Files) : Except PyErr Prepared :=
  if cfg.dtype ∉ ["float64", "float32"] then .error .valueError
  else
    match newGeometry cfg.meshType cfg.meshGenerationMethod cfg.nTestPointsX cfg.nTestPointsY
        cfg.outputPath false with
    | .error e => .error e.1
    | .ok o =>
      match o.generateInternal mc.env files (cfg.xMin, cfg.xMax) (cfg.yMin, cfg.yMax) cfg.nCellsX
          cfg.nCellsY cfg.nBoundaryPoints sample with
      | (.error e, _, _) => .error e
      | (.ok (.mesh cells bd), o, files) =>
        prepareModelWith transformation mc cfg pb layerDims lrFn o files cells (bdPairs bd)
      | (.ok _, _, _) => .error .typeError

/-- `test_accuracy_poisson.py:111-203` (`test_poisson_accuracy_transformation_precision`). -/
noncomputable def accuracyUniformWith (transformation : String) (mc : Machine) (pb : Problem) (cfg : ForwardConfig)
    (tol : ℝ) (checkRate : Bool) (sample : Fin 4 → Fin (cfg.nBoundaryPoints / 4) → ℝ) (θ : Weights) (files : Files) :
    Except PyErr Bool :=
  match prepareUniformWith transformation mc cfg pb [2, 30, 30, 30, 1] learningRateFn sample files with
  | .error e => .error e
  | .ok P => accuracyAssert mc pb cfg.epochs tol checkRate P (P.dense mc cfg pb (outDim P.specs)) θ

end FastVPINNs
