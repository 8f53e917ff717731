import Verif.Model.AccuracyTests

/-! # The test of the installation, `tests/compatibility/test_imports_and_build.py`

The second test of the file builds mesh, function space, data handler and model as the accuracy tests do, trains, and
ends with `assert True`.  Not modelled: the first test (`:6-54`), which consists of imports, and the creation of the
directory `tests/test_dump`.  The check of the data type in `prepareUniform` is not in the test, but the literal of the
test satisfies it. -/

namespace FastVPINNs

/-- `test_imports_and_build.py:121-136`, `:152-203`, `:209-211`: the literals of the test.  The call of `DenseModel` has no
argument `activation`, so it is `"tanh"` (`model.py:60`).  The fixture (`:67-113`) is that of
`test_accuracy_cd2d.py:18-62`, i.e. `testCd2d`. -/
noncomputable def buildSettings : ForwardConfig :=
  { testSquare 2 10 "jacobi" "gauss-jacobi" "tanh" "float32" false with
    feOrder := 5
    quadOrder := 10 }

/-- `test_imports_and_build.py:139-214` (`test_cd2d_accuracy_internal`): the test points and the exact solution at them
are computed and not used; every exception makes the test fail. -/
noncomputable def buildTest (mc : Machine) (pb : Problem) (cfg : ForwardConfig)
    (sample : Fin 4 → Fin (cfg.nBoundaryPoints / 4) → ℝ) (θ : Weights) (files : Files) : Except PyErr Unit :=
  match prepareUniform mc cfg pb [2, 30, 30, 30, 1] learningRateFn sample files with
  | .error e => .error e
  | .ok P =>
    match P.geometry.getTestPoints mc.env P.files with
    | (.error e, _, _) => .error e
    | (.ok (.points _), _, _) =>
      match trainEpochs (P.dense mc cfg pb (outDim P.specs)).step cfg.epochs ⟨θ, AdamState.init⟩ with
      | .error e => .error e
      | .ok _ => .ok ()
    | (.ok _, _, _) => .error .typeError

end FastVPINNs
