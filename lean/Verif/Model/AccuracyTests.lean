import Verif.Model.Driver

/-! # The accuracy tests of the forward problems, `tests/integration`

The tests build mesh, function space, data handler and model as the scripts do (`prepareUniform`,
`prepareExternal`), train, and compare the errors with a tolerance.  Not modelled: the parameter
`transformation = "affine"` of one test (the model is that with `"bilinear"`), the creation of the directory
`tests/test_dump`.  The tests of inverse problems are in `Model/AccuracyInverse.lean`. -/

namespace FastVPINNs

/-! ## The problems -/

/-- `test_accuracy_poisson.py:48-50`, `:78-80`, `test_accuracy_poisson_hard.py:44-46` (`forcing_function`). -/
noncomputable def testPoissonRhs (x y : ℝ) : ℝ :=
  let omega := 4.0 * Real.pi
  (-2.0) * omega ^ 2 * Real.sin (omega * x) * Real.sin (omega * y)

/-- `test_accuracy_poisson.py:50`, `:70`, `:80`, `test_accuracy_poisson_hard.py:46` (`exact_solution`,
`circle_boundary`). -/
noncomputable def testPoissonExact (x y : ℝ) : ℝ :=
  let omega := 4.0 * Real.pi
  (-1.0) * Real.sin (omega * x) * Real.sin (omega * y)

/-- `test_accuracy_poisson.py:22-58`, `test_accuracy_poisson_hard.py:18-54` (`poisson_test_data`). -/
noncomputable def testPoisson : Problem where
  loss := lossPoisson
  boundaryFunctionDict :=
    [(1000, fun _ _ => 0), (1001, fun _ _ => 0), (1002, fun _ _ => 0), (1003, fun _ _ => 0)]
  rhs := testPoissonRhs
  exactSolution := testPoissonExact
  bilinearParams := [("eps", 1.0)]

/-- `test_accuracy_poisson.py:61-88` (`poisson_test_data_circle`). -/
noncomputable def testPoissonCircle : Problem :=
  { testPoisson with boundaryFunctionDict := [(1000, testPoissonExact)] }

/-- `test_accuracy_cd2d.py:24-27`, `:54`, `:94`, `:112` (the boundary functions and `exact_solution`). -/
noncomputable def testCd2dExact (x y : ℝ) : ℝ := Real.tanh (Real.pi * x) * Real.cos (2 * Real.pi * y)

/-- `test_accuracy_cd2d.py:44-50`, `:102-108` (`rhs`). -/
noncomputable def testCd2dRhs (x y : ℝ) : ℝ :=
  let result := 0.2 * Real.sin (2 * Real.pi * y) * Real.sinh (2 * Real.pi * x)
  let result := result + 4.0 * Real.pi * Real.cos (2 * Real.pi * y) * Real.sinh (2 * Real.pi * x)
  let result := result + 4.0 * Real.pi * Real.cos (2 * Real.pi * y) * Real.tanh (Real.pi * x)
  let result := result + 0.4 * Real.cos (2 * Real.pi * y)
  Real.pi * result / (Real.cosh (2 * Real.pi * x) + 1)

/-- `test_accuracy_cd2d.py:18-62` (`cd2d_test_data_internal`). -/
noncomputable def testCd2d : Problem where
  loss := lossCd2d
  boundaryFunctionDict :=
    [(1000, testCd2dExact), (1001, testCd2dExact), (1002, testCd2dExact), (1003, testCd2dExact)]
  rhs := testCd2dRhs
  exactSolution := testCd2dExact
  bilinearParams := [("eps", 1.0), ("b_x", 0.2), ("b_y", -0.1), ("c", 0.0)]

/-- `test_accuracy_cd2d.py:85-120` (`cd2d_test_data_circle`). -/
noncomputable def testCd2dCircle : Problem :=
  { testCd2d with boundaryFunctionDict := [(1000, testCd2dExact)] }

/-- `test_accuracy_helmholtz.py:25-28`, `:56`, `:96`, `:115` (the boundary functions and `exact_solution`). -/
noncomputable def testHelmholtzExact (x y : ℝ) : ℝ :=
  (x + y) * Real.sin (Real.pi * x) * Real.sin (Real.pi * y)

/-- `test_accuracy_helmholtz.py:45-52`, `:104-111` (`rhs`). -/
noncomputable def testHelmholtzRhs (x y : ℝ) : ℝ :=
  let term1 := 2 * Real.pi * Real.cos (Real.pi * y) * Real.sin (Real.pi * x)
  let term2 := 2 * Real.pi * Real.cos (Real.pi * x) * Real.sin (Real.pi * y)
  let term3 := (x + y) * Real.sin (Real.pi * x) * Real.sin (Real.pi * y)
  let term4 := -2 * Real.pi ^ 2 * (x + y) * Real.sin (Real.pi * x) * Real.sin (Real.pi * y)
  term1 + term2 + term3 + term4

/-- `test_accuracy_helmholtz.py:19-64` (`helmholtz_test_data_internal`). -/
noncomputable def testHelmholtz : Problem where
  loss := lossHelmholtz
  boundaryFunctionDict :=
    [(1000, testHelmholtzExact), (1001, testHelmholtzExact), (1002, testHelmholtzExact), (1003, testHelmholtzExact)]
  rhs := testHelmholtzRhs
  exactSolution := testHelmholtzExact
  bilinearParams := [("eps", 1.0), ("k", 1.0)]

/-- `test_accuracy_helmholtz.py:87-123` (`helmholtz_test_data_circle`). -/
noncomputable def testHelmholtzCircle : Problem :=
  { testHelmholtz with boundaryFunctionDict := [(1000, testHelmholtzExact)] }

/-! ## The settings -/

/-- `test_accuracy_poisson.py:402-421` (`poisson_learning_rate_static_data`; the other files have the same values), with
`use_lr_scheduler` as set in `:358-359`. -/
noncomputable def testLearningRate (scheduler : Bool) : List (String × PyVal) :=
  [("initial_learning_rate", .num 0.001), ("use_lr_scheduler", .bool scheduler), ("decay_steps", .num 1000),
    ("decay_rate", .num 0.99), ("staircase", .bool false)]

/-- The literals of a test on the unit square, e.g. `test_accuracy_poisson.py:111-203`; the parameters are those that
differ between the tests.  The names that do not occur get empty values. -/
noncomputable def testSquare (n epochs : ℕ) (feType quadType activation dtype : String) (scheduler : Bool) :
    ForwardConfig where
  outputPath := "tests/test_dump"
  meshGenerationMethod := "internal"
  generateMeshPlot := false
  meshType := "quadrilateral"
  xMin := 0
  xMax := 1
  yMin := 0
  yMax := 1
  nCellsX := n
  nCellsY := n
  nBoundaryPoints := 500
  nTestPointsX := 100
  nTestPointsY := 100
  meshFileName := ""
  boundaryRefinementLevel := 0
  boundarySamplingMethod := ""
  feOrder := 4
  feType := feType
  quadOrder := 5
  quadType := quadType
  modelArchitecture := []
  activation := activation
  useAttention := false
  epochs := epochs
  dtype := dtype
  learningRate := testLearningRate scheduler
  beta := 10
  updateConsoleOutput := 0

/-- The literals of a test on the disc, e.g. `test_accuracy_poisson.py:424-520`. -/
noncomputable def testDisc (epochs : ℕ) (dtype : String) : ForwardConfig :=
  { testSquare 0 epochs "jacobi" "gauss-jacobi" "tanh" dtype false with
    meshGenerationMethod := "external"
    nBoundaryPoints := 0
    meshFileName := "tests/support_files/circle_quad.mesh"
    boundaryRefinementLevel := 2
    boundarySamplingMethod := "uniform"
    feOrder := 3
    quadOrder := 4 }

/-! ## The tests -/

/-- `test_accuracy_poisson.py:380-399` (and the same lines of the other tests, which end before `:397`): test points,
training, errors, assertions.  `.ok true` is a test that passes, `.ok false` an `AssertionError`.  `checkRate` is the
condition of line 397.  `tf.keras.backend.get_value(model.optimizer.lr)` is the rate at the number of steps done, if
`lrNumpy` says that the optimizer has a value. -/
noncomputable def accuracyAssert {α : Type} (mc : Machine) (pb : Problem) (epochs : ℕ) (tol : ℝ) (checkRate : Bool)
    (P : Prepared) (M : DriverModel α) (θ : Weights) : Except PyErr Bool :=
  match P.geometry.getTestPoints mc.env P.files with
  | (.error e, _, _) => .error e
  | (.ok (.points points), _, _) =>
    let yExact := points.map fun p => pb.exactSolution p.1 p.2
    match trainEpochs M.step epochs ⟨θ, AdamState.init⟩ with
    | .error e => .error e
    | .ok (_, s) =>
      match M.predict s.weights points with
      | .error e => .error e
      | .ok yPred =>
        match computeErrorsCombined (array1 yExact) (array1 yPred) with
        | .error e => .error e
        | .ok (l2, _, _, _, l1, _) =>
          if l2 < tol ∧ l1 < tol then
            if checkRate then
              match mc.lrNumpy P.lr with
              | .error e => .error e
              | .ok () => .ok (decide (P.lr.at s.adam.iterations < 0.001))
            else .ok true
          else .ok false
  | (.ok _, _, _) => .error .typeError

/-- A test on the square with `DenseModel`: `test_accuracy_poisson.py:111-203`, `:206-301`, `:304-399`,
`test_accuracy_cd2d.py:123-211`, `test_accuracy_helmholtz.py:126-214`. -/
noncomputable def accuracyUniform (mc : Machine) (pb : Problem) (cfg : ForwardConfig) (tol : ℝ) (checkRate : Bool)
    (sample : Fin 4 → Fin (cfg.nBoundaryPoints / 4) → ℝ) (θ : Weights) (files : Files) : Except PyErr Bool :=
  match prepareUniform mc cfg pb [2, 30, 30, 30, 1] learningRateFn sample files with
  | .error e => .error e
  | .ok P => accuracyAssert mc pb cfg.epochs tol checkRate P (P.dense mc cfg pb (outDim P.specs)) θ

/-- The test on the square with `DenseModel_Hard`: `test_accuracy_poisson_hard.py:78-186`; its function
`apply_hard_boundary_constraints` (`:132-149`) has the formula of the script. -/
noncomputable def accuracyHard (mc : Machine) (pb : Problem) (cfg : ForwardConfig) (tol : ℝ)
    (sample : Fin 4 → Fin (cfg.nBoundaryPoints / 4) → ℝ) (θ : Weights) (files : Files) : Except PyErr Bool :=
  match prepareUniform mc cfg pb [2, 30, 30, 30, 1] learningRateFnStaircase sample files with
  | .error e => .error e
  | .ok P => accuracyAssert mc pb cfg.epochs tol false P (P.hard mc cfg pb (outDim P.specs)) θ

/-- A test on the disc: `test_accuracy_poisson.py:424-520`, `test_accuracy_cd2d.py:214-302`,
`test_accuracy_helmholtz.py:217-305`. -/
noncomputable def accuracyExternal (mc : Machine) (pb : Problem) (cfg : ForwardConfig) (tol : ℝ)
    (lhs : ℕ → Fin (2 ^ cfg.boundaryRefinementLevel + 1) → ℝ × ℝ) (θ : Weights) (files : Files) :
    Except PyErr Bool :=
  match prepareExternal mc cfg pb [2, 50, 50, 50, 1] lhs files with
  | .error e => .error e
  | .ok P => accuracyAssert mc pb cfg.epochs tol false P (P.dense mc cfg pb (outDim P.specs)) θ

end FastVPINNs
