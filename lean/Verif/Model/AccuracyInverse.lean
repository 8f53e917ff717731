import Verif.Model.AccuracyTests
import Verif.Model.DriverDomain

/-! # The accuracy tests of the inverse problems, `tests/integration`

`test_accuracy_inverse_const.py` and `test_accuracy_cd2d_inverse_domain.py`.  Not modelled: the creation of the
directory `tests/test_dump`, what is printed, and the second call of `get_sensor_data` of the last test
(`test_accuracy_cd2d_inverse_domain.py:171-176`), whose result is not used. -/

namespace FastVPINNs

/-! ## The problems and the settings -/

/-- `test_accuracy_inverse_const.py:18-76` (`poisson2d_inverse_const_test_data`) with the guess of `:152-156`; the
boundary functions, `rhs` and `exact_solution` have the formulas of the example, the coefficient among the parameters
(`:42`) has another value. -/
noncomputable def testInverse : InverseProblem :=
  { problemInverse with
    bilinearParams := [("eps", 2)]
    inverseParams := [("eps", 2)]
    inverseActual := [("eps", 0.3)] }

/-- `test_accuracy_inverse_const.py:79-124` (`poisson2d_inverse_const_test_data_circle`) with the guess of
`:264-268`. -/
noncomputable def testInverseCircle : InverseProblem :=
  { testInverse with
    boundaryFunctionDict := [(1000, ConstInverse.boundary)]
    inverseParams := [("eps", 3)] }

/-- `test_accuracy_cd2d_inverse_domain.py:41-79` (`cd2d_test_data_circle`). -/
noncomputable def testDomain : DomainProblem where
  loss := lossCd2dInverseDomain
  boundaryFunctionDict := [(1000, fun _ _ => 0)]
  rhs := fun _ _ => 10.0
  exactSolution := fun x y => Real.tanh (Real.pi * x) * Real.cos (2 * Real.pi * y)
  bilinearParams := [("eps", 0.1), ("b_x", 1), ("b_y", 0.0), ("c", 0.0)]
  actualEps := fun x y => 0.5 * (Real.sin x + Real.cos y)

/-- The literals of `test_accuracy_inverse_const.py:145-254`. -/
noncomputable def testInverseSquare (n epochs : ℕ) : InverseConfig :=
  { testSquare n epochs "jacobi" "gauss-jacobi" "tanh" "float32" false with
    modelArchitecture := [2, 30, 30, 30, 1]
    numSensorPoints := 50 }

/-- The literals of `test_accuracy_inverse_const.py:257-370`. -/
noncomputable def testInverseDisc (epochs : ℕ) : InverseConfig :=
  { testDisc epochs "float32" with
    modelArchitecture := [2, 30, 30, 30, 1]
    numSensorPoints := 100 }

/-- The literals of `test_accuracy_cd2d_inverse_domain.py:18-38`, `:82-211`. -/
noncomputable def testDomainDisc (epochs : ℕ) : InverseConfig :=
  { testDisc epochs "float32" with
    quadOrder := 5
    modelArchitecture := [2, 30, 30, 30, 2]
    learningRate := [("initial_learning_rate", .num 0.003), ("use_lr_scheduler", .bool false),
      ("decay_steps", .num 1000), ("decay_rate", .num 0.99), ("staircase", .bool false)]
    numSensorPoints := 500 }

/-! ## The tests -/

/-- `test_accuracy_inverse_const.py:230-254`, `:347-370`: test points, training, errors, the last value of the
unknown coefficient, assertions.  `rms` says whether the root mean square error is in the assertion (`:253`) or not
(`:369`).  The coefficient is read in every step here, in the test after the training; without `eps` among the unknowns
both raise a `KeyError`, and without any step the name `loss` is unbound (`:247`). -/
noncomputable def accuracyInverseAssert {dout : ℕ} (mc : Machine) (pb : InverseProblem) (epochs : ℕ) (rms : Bool)
    (tol tolEps : ℝ) (P : PreparedInverse) (M : DriverModel (TrainOutInverse dout × ℝ)) (θ : Weights) :
    Except PyErr Bool :=
  match P.base.geometry.getTestPoints mc.env P.base.files with
  | (.error e, _, _) => .error e
  | (.ok (.points points), _, _) =>
    let yExact := points.map fun p => pb.exactSolution p.1 p.2
    match trainEpochs M.step epochs ⟨θ, AdamState.init⟩ with
    | .error e => .error e
    | .ok (losses, s) =>
      match M.predict s.weights points with
      | .error e => .error e
      | .ok yPred =>
        match computeErrorsCombined (array1 yExact) (array1 yPred) with
        | .error e => .error e
        | .ok (l2, _, _, _, l1, _) =>
          match losses.getLast? with
          | none => .error .nameError
          | some loss => .ok (decide ((rms = true → l2 < tol) ∧ l1 < tol ∧ |loss.2 - 0.3| < tolEps))
  | (.ok _, _, _) => .error .typeError

/-- `test_accuracy_inverse_const.py:145-254` (`test_inverse_constant_poisson2d_internal`). -/
noncomputable def accuracyInverseSquare (mc : Machine) (pb : InverseProblem) (cfg : InverseConfig) (tol tolEps : ℝ)
    (sample : Fin 4 → Fin (cfg.nBoundaryPoints / 4) → ℝ)
    (lhs : ℕ → Fin (2 ^ cfg.boundaryRefinementLevel + 1) → ℝ × ℝ) (sensorLhs : (k : ℕ) → Fin k → ℝ × ℝ)
    (randint : ℕ → Fin cfg.numSensorPoints → ℤ) (θ : Weights) (files : Files) : Except PyErr Bool :=
  match prepareInverse mc cfg pb sample lhs sensorLhs randint files with
  | .error e => .error e
  | .ok P =>
    accuracyInverseAssert mc pb cfg.epochs true tol tolEps P (P.model mc cfg pb (outDim P.base.specs))
      (initialInverse θ (paramsAsTensors pb.inverseParams))

/-- `test_accuracy_inverse_const.py:282-345`: mesh file, function space, data handler, boundary data, model and sensor
data (read before the model is built there).  `csv` are the lines of the file with the sensor data. -/
noncomputable def prepareInverseFile (mc : Machine) (cfg : InverseConfig) (pb : InverseProblem)
    (lhs : ℕ → Fin (2 ^ cfg.boundaryRefinementLevel + 1) → ℝ × ℝ) (csv : List (ℝ × ℝ × ℝ))
    (randint : ℕ → Fin cfg.numSensorPoints → ℤ) (files : Files) : Except PyErr PreparedInverse :=
  if cfg.dtype ∉ ["float64", "float32"] then .error .valueError
  else
    match newGeometry cfg.meshType cfg.meshGenerationMethod cfg.nTestPointsX cfg.nTestPointsY
        cfg.outputPath false with
    | .error e => .error e.1
    | .ok o =>
      match o.readMesh mc.env files cfg.meshFileName cfg.boundaryRefinementLevel
          cfg.boundarySamplingMethod lhs with
      | (.error e, _, _) => .error e
      | (.ok (.mesh cells bd), o, files) =>
        match prepareModel mc cfg.forward pb.toProblem cfg.modelArchitecture learningRateFnStaircase o files cells
            (bdPairs bd) with
        | .error e => .error e
        | .ok B =>
          match getSensorDataExternal pb.exactSolution cfg.numSensorPoints (some csv) randint with
          | .error e => .error e
          | .ok sensor => .ok ⟨B, sensor, 0.3⟩
      | (.ok _, _, _) => .error .typeError

/-- `test_accuracy_inverse_const.py:257-370` (`test_inverse_constant_poisson2d_external`). -/
noncomputable def accuracyInverseDisc (mc : Machine) (pb : InverseProblem) (cfg : InverseConfig) (tol tolEps : ℝ)
    (lhs : ℕ → Fin (2 ^ cfg.boundaryRefinementLevel + 1) → ℝ × ℝ) (csv : List (ℝ × ℝ × ℝ))
    (randint : ℕ → Fin cfg.numSensorPoints → ℤ) (θ : Weights) (files : Files) : Except PyErr Bool :=
  match prepareInverseFile mc cfg pb lhs csv randint files with
  | .error e => .error e
  | .ok P =>
    accuracyInverseAssert mc pb cfg.epochs false tol tolEps P (P.model mc cfg pb (outDim P.base.specs))
      (initialInverse θ (paramsAsTensors pb.inverseParams))

/-- `test_accuracy_cd2d_inverse_domain.py:83-211` (`test_cd2d_accuracy_external`). -/
noncomputable def accuracyDomain (mc : Machine) (pb : DomainProblem) (cfg : InverseConfig) (tol : ℝ)
    (csv : List (ℝ × ℝ × ℝ)) (sensorLhs : (k : ℕ) → Fin k → ℝ × ℝ) (randint : ℕ → Fin cfg.numSensorPoints → ℤ)
    (sample : Fin 4 → Fin (cfg.nBoundaryPoints / 4) → ℝ)
    (lhs : ℕ → Fin (2 ^ cfg.boundaryRefinementLevel + 1) → ℝ × ℝ) (θ : Weights) (files : Files) :
    Except PyErr Bool :=
  match prepareDomain mc cfg pb (.circle csv sensorLhs randint) sample lhs files with
  | .error e => .error e
  | .ok P =>
    match P.geometry.getTestPoints mc.env P.base.files with
    | (.error e, _, _) => .error e
    | (.ok (.points points), _, _) =>
      match (DomainSource.circle csv sensorLhs randint).exact pb points with
      | .error e => .error e
      | .ok yExact =>
        let actual := points.map fun p => pb.actualEps p.1 p.2
        match trainEpochs (P.model mc cfg pb (outDim P.base.specs)).step cfg.epochs ⟨θ, AdamState.init⟩ with
        | .error e => .error e
        | .ok (_, s) =>
          match (P.model mc cfg pb (outDim P.base.specs)).call s.weights (points.map fun p => [p.1, p.2]) with
          | .error e => .error e
          | .ok y =>
            match batchColumn y 0, batchColumn y 1 with
            | .error e, _ => .error e
            | _, .error e => .error e
            | .ok yPred, .ok invPred =>
              match computeErrorsCombined (array1 yExact) (array1 yPred) with
              | .error e => .error e
              | .ok (_, _, _, _, l1, _) =>
                match computeErrorsCombined (array1 actual) (array1 invPred) with
                | .error e => .error e
                | .ok (_, _, _, _, l1Inverse, _) => .ok (decide (l1 < tol ∧ l1Inverse < tol))
    | (.ok _, _, _) => .error .typeError

end FastVPINNs
