# Formal model of fastvpinns in Lean 4

The source under study is `/repo/fastvpinns` (and the example problems in `/repo/examples`) at the pinned
commit. It is read as text only. The model is in `lean/Verif`:

| directory | content |
|---|---|
| `Verif/Model/` | one Lean definition per Python function, each with a comment naming file and lines |
| `Verif/Spec/`  | small independent specifications (rectangles, convex position, partial derivatives, weak form, ...) |
| `Verif/Lemmas/` | auxiliary mathematics and facts about single model functions |
| `Verif/Props/` | the property theorems `C01_...`, with `example`s on concrete cases |

`properties.jsonl` states the properties in English, `MANIFEST.json` names the theorems of each, and
`seeded/LOG.jsonl` records the wrong programs that the theorems were tried on.

## Modelling conventions

* **Numbers.** `float32/float64` become `ℝ`. Rounding is modelled for
  the losses (`Model/Rounded.lean`, C85) and the error metrics (`Model/RoundedErrors.lean`, C86), infinities, NaN
  and overflow for the same computations (`Model/Special.lean`, C93), underflow for the losses (C99) and the error metrics (C113), whole
  trainings with rounding and underflow (`Model/RoundedTraining.lean`, C102), and nowhere else. Python `int`
  becomes `ℕ` or `ℤ` (the latter where negative values are accepted by the API). `int(n*0.9)` is the exact
  floor.
* **Arrays.** Arrays whose shape is fixed by the settings are functions on `Fin n` (the shape is in the
  type; C-order flattening of a pair `(i,j)` is `n*i+j`). Arrays whose length depends on data (boundary
  points, dictionaries, text lines, batches) are `List`s.
* **Exceptions** are values: `Except PyErr α`, with the constructors `valueError`, `typeError`, `keyError`,
  `indexError`, ... Checks are modelled in source order, so theorems can say which error comes first.
* **Random sampling** (`pyDOE.lhs`, `np.random`) is a parameter with its documented range; theorems
  quantify over all outcomes.
* **Dictionaries** are association lists in insertion order (Python >= 3.7); keyword calls are modelled as
  such lists, including unknown and missing keywords.
* **Mutable state.** Arrays handed out by accessors live on a small heap (`Model/Heap.lean`), the geometry
  object is a state that goes through arbitrary sequences of method calls (`Model/GeometryObject.lean`),
  training is a state machine over the weights and optimizer slots (`Model/Training.lean`).
* **Arguments** have the types the API documents; wrong types are modelled only where the code tests them.

## Trusted base

* Lean 4.33.0 kernel and Mathlib; every theorem depends at most on the axioms `propext`,
  `Classical.choice`, `Quot.sound`. No axioms are added, no `sorry`, no `native_decide`/`bv_decide`.
* The faithfulness of the hand-written model to the Python source, including the conventions above.
* Documented behaviour of external routines:
  * given by definitions: `np.linspace`, `np.meshgrid`, `np.argsort`, `np.unique`, `np.arctan2` (complex
    argument), `np.linalg.solve`, reshapes, `tf.reshape/concat/stack/gather`, keras `Attention` (softmax of scalar products), `tf.linalg.matvec`,
    `tf.reduce_*`, `scipy.special.jacobi` (explicit formula), keras `Dense`, `ExponentialDecay`
    (`staircase=True`) and `Adam` (default `beta_1`, `beta_2`, `epsilon`; formula of its documentation);
  * given by hypotheses: `leggauss` integrates polynomials up to degree `2n-1` exactly (`LeggaussOK`);
    `roots_jacobi` returns the roots (`RootsJacobiOK`). Both are shown to be satisfiable
    (`quadRoutines_exist`), so theorems that assume them are not vacuous;
  * automatic differentiation returns the exact partial derivatives of the network (activations that are
    differentiable), and a variable not reached by the tape has gradient zero. C101 derives this from less: a
    tape applies the chain rule to the recorded operations with the derivative registered for each of them,
    and the registered derivative of the ReLU is 0 at 0, its second one 0 everywhere;
  * `meshio.read` is a function from file names to meshes or errors; `gmsh` writes some VTK file;
  * in the scripts (`Machine` in `Model/Driver.lean`): `elapsed e` is the time measured for epoch `e`,
    `fmt4` and `str` are number formats, `Path(a) / b` is injective in `b` (a hypothesis of the theorems),
    meshio's VTK writer writes the point count that `write_vtk` looks for (`VtkRoundTrip`);
    `np.percentile` of an empty array raises `IndexError` (numpy 1.22 and 1.23, which `setup.py` allows);
  * `yaml.safe_load` returns a tree of mappings, numbers, strings, Booleans and nulls (a parameter; the
    trees of `Model/ConfigShipped.lean` were generated by a script from the shipped files);
    `pd.read_csv(…).iloc[:, 2]` is the third column, an `IndexError` if there is none;
  * floating-point arithmetic (C85, C86, C93, C99, C102, C113 only): an operation returns the exact result times
    `1 + δ` with `|δ| ≤ ε`; sums in any order and grouping, products in a sum possibly unrounded (fused
    multiply-add); the tensors and the values of the network are the exact numbers up to `j` roundings;
    no underflow (in C99, for the losses, an operation also loses an absolute amount of at most `η`, and all inputs
    have an absolute error; in C113 also, and an operation keeps the sign), and only in C93 overflow: there finite numbers are below a threshold, results near it
    may become infinite, and infinities and NaN propagate as in IEEE 754 (one zero, `np.max` returns NaN if there
    is one). In C102 one accuracy `τ` bounds the relative and the absolute error of every operation, of `tanh`,
    `exp`, `sqrt` and the reciprocal, and of all stored constants, without overflow;
  * `tf.function` (C94): the text of the step is executed once per signature (values of Python numbers, types of
    tensors, keys of dictionaries); the graph keeps what the text read from `self` and reads variables and tensor
    arguments when it runs;
  * Optuna runs trials with distinct numbers counted from 0 and suggests values of the declared space; `study.optimize` re-raises the exception of a trial, stores a trial that returns NaN as failed and goes on, orders infinite values like extended real numbers, `study.best_params` belongs
    to a completed trial of the storage with the least value, a `ValueError` if there is none;
    device placement does not change results;
  * matplotlib (`Model/Pyplot.lean`): drawing commands act on the current figure, `savefig` stores what has been
    drawn in it, `contourf` needs at least two rows and columns (`TypeError`), `plot(x, y)` equal lengths
    (`ValueError`), `colorbar` of a mappable without axes is a `ValueError` from version 3.8 on (a parameter);
    `tricontourf` (a parameter) works exactly for points that span a triangle (a hypothesis of C100).

## What is modelled, file by file

| source | modelled | not modelled |
|---|---|---|
| `Geometry/geometry_2d.py` | constructor, `read_mesh`, `generate_quad_mesh_internal`, `get_test_points`, `write_vtk`, and the object over its lifetime | progress output; `plot_adaptive_mesh` is in `Model/Pyplot.lean` |
| `FE/fe2d_setup_main.py`, `FE/basis_2d_QN_*.py` | all | |
| `FE/quadratureformulas_quad2d.py` | all | |
| `FE/quad_affine.py`, `FE/quad_bilinear.py` | all | |
| `FE/FE2D_Cell.py` | all | |
| `FE/fespace2d.py` | constructor, all accessors, sensor data, forcing, plot statistics and plot limits; the mesh and sensor plots (`Model/Pyplot.lean`) | |
| `data/datahandler2d.py` | all | |
| `physics/*.py` | all six losses, in exact arithmetic and (those with a usable model) with rounding (`Model/Rounded.lean`), underflow (`Model/Underflow.lean`), infinities and NaN (`Model/Special.lean`); with tensors of any shape and TensorFlow's broadcasting (`Model/Broadcast.lean`, C105: the other models give every tensor its intended shape) | |
| `model/model*.py` | constructors (with defaults and missing arguments), `call`, `get_config`/rebuild, `train_step` with gradients and Adam, the cache of compiled steps (`tf.function`), both gradient tapes operation by operation (`Model/Tape.lean`), steps and trainings with rounding (`Model/RoundedTraining.lean`) | `build`, the symbolic `self.gradients` |
| `hyperparameter_tuning/*.py`, `examples/optuna_examples/main.py` | GPU choice, search space, objective with training, concurrent trials, stored trials and the best of them, the script (`Model/Tuning.lean`, `Model/Study.lean`), NaN and infinite values of trials (`Model/StudyNan.lean`) | Optuna's sampler (any point of the space), the format of its storage, `argparse` |
| `utils/compute_utils.py`, `utils/print_utils.py` | all; the errors also with rounding, infinities and NaN (`Model/RoundedErrors.lean`, `Model/Special.lean`) and underflow (`Model/UnderflowErrors.lean`, C113); in the exact model `x / 0 = 0` | |
| `utils/plot_utils.py` | all, as changes of the state of `pyplot` (`Model/Pyplot.lean`) | sizes, fonts, colours of lines, layout |
| `FE/fespace.py`, `FE/basis_function_2d.py`, `FE/fe_transformation_2d.py`, `Geometry/geometry.py`, `data/datahandler.py`, `FE/quadratureformulas.py` | - | abstract base classes without behaviour |
| `FE/*_3d.py` | - | unused skeletons |
| `examples/**/<problem>.py` | formulas of all problems with a closed-form solution (C60, C71) | placeholders without solution |
| `examples/**/main_*.py` (forward problems) | the whole script: mesh, space, data, model, epoch loop, reports, files, tables (`Model/Driver.lean`), with the shipped configurations (`Model/DriverShipped.lean`) | console layout, creation of folders; the plots on the rectangle are in `Model/DriverFigures.lean` (C83), those of mesh files are VTK files |
| `examples/forward_problems_2d/complex_mesh/cd2d_gear/` | the script with the exact solution from a file (`Model/DriverGear.lean`) | as above |
| `examples/**/input*.yaml` | all entries, as trees (`Model/ConfigShipped.lean`); command line and reading of the entries (`Model/ConfigFile.lean`) | the YAML syntax (`yaml.safe_load` is a parameter), entries of an unexpected type |
| `examples/inverse_problems_2d/const_inverse_poisson2d/` | the whole script `main_inverse.py`, its problem and its configuration (`Model/DriverInverse.lean`, plots in `Model/DriverFigures.lean`) | console layout, creation of folders; whether the learning rate can be printed is a parameter (`Machine.lrNumpy`) |
| `examples/inverse_problems_2d/domain_inverse_cd2d/**/main_*.py` | both scripts, their problems and their configurations (`Model/DriverDomain.lean`); the theorems of C79 are about mesh files, those of C98 about internal meshes, C61 about the reshape on the rectangle | console layout, creation of folders; the plots are in `Model/DriverDomainFigures.lean` (C83) |
| `docker_initialise.py` | everything (`Model/Docker.lean`); files and programs are parameters: their text, or the exception of opening or starting them | non-ASCII digits and blanks, what the converter itself prints |
| `examples/**/utility.py` | `plot_results` (`Model/DriverFigures.lean`), `get_errors` (`Model/Docker.lean`) | the values in the printed lines of `get_errors` |
| `examples/notebooks/*.ipynb` | both notebooks from the settings to figure and table, the problem, the class and loss of `custom_training_poisson.ipynb` (`Model/Notebook.lean`) | installation cells, colour bars, layout, measured times; `domain_inverse_cd2d/USA/rhs.ipynb` (sympy; its second cell uses `plt` without importing it) |
| `tests/integration` | the accuracy tests: problems, settings, training, errors, assertions (`Model/AccuracyTests.lean`, `Model/AccuracyInverse.lean`, `Model/Transformation.lean`) | creation of the output directory, a call of `get_sensor_data` whose result is not used; unit tests |
| `tests/unit` | the tests of areas, boundary data, accessors and shapes, with their literals as parameters (`Model/UnitTests.lean`); what `test_fe2d_cell.py`, `test_geometry_2d.py`, `test_read_mesh.py`, `test_write_vtk.py` assert is in C01, C10, C11, C12 | `isinstance` and `dtype` of tensors, rounding in `np.isclose`, existence of plot files, directories |
| `tests/compatibility` | the test that builds and trains a model (`Model/BuildTest.lean`) | the import test, creation of the output directory |
| `setup.py`, `docs` | - | all |

## Plan per property

| id | what is modelled | how it is proved |
|---|---|---|
| C01 | constructor checks | case analysis |
| C02 | linspace, cell loop, centroid, arctan2 (`Complex.arg`), argsort | signs of the four corners relative to the centroid give strictly increasing angles; a strictly sorted list is fixed by sorting |
| C03 | as C02 | locate the grid interval by `Nat.floor`; monotonicity of grid lines |
| C04 | boundary point generation with arbitrary sampler | algebra, convex combination |
| C05 | linspace + meshgrid | index arithmetic |
| C06 | angle sort of read_mesh | cross products with the centroid are positive; angle differences of consecutive vertices add up to zero, hence exactly one wrap-around |
| C07–C10, C62 | read_mesh boundary loop on lists | induction over the edge list; `mergeSort`+dedup as `np.unique` |
| C11 | write_vtk on lists of lines | list induction |
| C12 | fe2d_setup_main, quadrature constructor | case analysis |
| C13 | row filling loops of the bases | `Fin.divNat/modNat` |
| C14–C21 | Jacobi polynomials `P_n^{(a,b)}` by explicit formula | derivative identity `P_n^{(a,b)}' = (n+a+b+1)/2 P_{n-1}^{(a+1,b+1)}`; end-point values via Chu–Vandermonde; equality with Mathlib's shifted Legendre and Chebyshev polynomials |
| C22, C23 | tensor product rule | `Finset` algebra, linearity |
| C24 | Lobatto weights formula (`quad_order >= 3`, which the constructor enforces) | Legendre orthogonality and ODE, polynomial division, interpolatory weights |
| C25–C30 | affine and bilinear maps | algebra, `HasDerivAt`/`HasFDerivAt` chain rule, sign of a bilinear form on the square |
| C31–C33 | FE2D_Cell | combination of the above |
| C34–C40, C63 | Fespace2D from the constructor call | case analysis; heap invariant over histories for the aliasing claim (C35) |
| C41 | DataHandler2D tensors and the reshapes in train_step | index arithmetic |
| C42–C45 | physics losses | `Finset` algebra |
| C46 | whole pipeline from mesh to loss | integration by parts in 1D, exactness, tensor products |
| C47–C52, C64 | models: training step, constraints, keyword binding, constructor wiring, configuration | algebra / case analysis / induction over layers |
| C53–C57 | utils | `Finset` inequalities (Cauchy–Schwarz, Minkowski) |
| C58, C59, C65 | tuner, concurrent trials as an arbitrary schedule | modular arithmetic / case analysis |
| C60, C71 | example problems | `deriv` computations for all (x,y); Taylor polynomials |
| C61 | test grid reshape | index arithmetic |
| C66, C67 | geometry object, arbitrary histories of calls | invariants by induction over the history |
| C68–C70 | quadrature sums against Mathlib's Lebesgue integral over the convex cell, divergence theorem on the cell | change of variables for the bilinear map (injective on convex cells), Fubini, integration by parts |
| C72 | training at zero loss | the loss is non-negative, so its gradient vanishes where it is zero; Adam without momentum does not move |
| C73 | gradient and Adam step | smoothness of the network in weights and point jointly; derivative along the Adam direction |
| C74 | Adam moments over whole runs | invariant `m² <= 7.3² v`, bias correction inequality, geometric series |
| C77 | keras attention layer (`Model/Attention.lean`) | weighted means; a network that is rowwise with attention is locally constant, hence constant |
| C75 | `FE2D_Cell` attributes one by one | constructor inversion, explicit inverse of the affine map |
| C76 | the training scripts of the forward examples from configuration to files | invariant of the epoch loop; inversion of every stage, composed with C05, C11, C47, C50, C51, C53, C55, C63; with the attention layer the network of C77 (`batchValue`); the mesh generation method with which the scripts finish (`Props/DriverMethod.lean`: internal on the rectangle unless there is a mesh file named `None`, external on mesh files) |
| C78 | the script for the constant inverse problem (`Model/DriverInverse.lean`) | the stages of C76 with sensor data (C40), the unknown as a trainable variable (C47, C73) and statistics without the first epoch |
| C79 | the two scripts for a space-dependent coefficient (`Model/DriverDomain.lean`) | the stages of C76 on mesh files with all outputs of the network (`Spec/DriverDomain.lean`), sensors from shuffled mesh points or from the CSV file (C40), the loss of C47 |
| C80 | the gear script (`Model/DriverGear.lean`) | distinct vertices make the column a function of the vertex; reduction to C76 with this function |
| C81 | command line, YAML tree, assignments, types (`Model/ConfigFile.lean`), shipped trees (`Model/ConfigShipped.lean`) | assignments in order succeed exactly if each path leads somewhere (`Spec.At`); names are bound once, so each variable is the entry under its path; shipped trees by computation |
| C82 | trial with real training, study as an arbitrary interleaving of starts and ends of trials, storage, script (`Model/Study.lean`) | the trial is the training of C76 for the same hyper-parameters; invariant over the events of the study; a decreasing measure for termination |
| C83 | stack of open figures and image files, the plotting functions of the library, the plotting commands of the scripts on the rectangle and of the scripts for a coefficient field (`Model/Pyplot.lean`, `Model/DriverFigures.lean`, `Model/DriverDomainFigures.lean`) | each function is one saved image on top of the given state; induction over the reports, image names are distinct because decimal representations are |
| C84 | defect of the equation (`Spec/Defect.lean`), reported losses of C69 | the weak form is the integral of defect times test function (C70 with forcing `f + defect`); weighted polynomials are combinations of the test functions; Stone–Weierstrass |
| C85 | expressions with all their floating-point evaluations (`Model/Rounded.lean`), losses and training steps as such expressions | forward error analysis: induction over the expression, sums in any order |
| C86 | error metrics with rounding (`Model/RoundedErrors.lean`) | relative accuracy is kept by sums of non-negative numbers, maxima, roots and quotients |
| C87 | no new model; `Spec/Numbering.lean`: same cells in another order with other first vertices | a quadrature rule of Gauss or Lobatto type is unique, so symmetric (`Lemmas/RuleUnique.lean`); test functions are even or odd, so the turned cell permutes nodes and test functions up to sign |
| C88 | no new model; `Spec/Similarity.lean`: other units, axes, origin | chain rule for the composed cell map; gradients turn by an orthogonal matrix and scale inversely to lengths |
| C89 | no new model; `Spec/Trainable.lean`: shapes of the weights | induction over the layers and the epochs |
| C90 | no new model; `Spec/Stability.lean`: widths, stability factors | maximum principle with quadratic barriers; polynomials are bounded by their moments (finite dimension, C84); bounds of the weak forms by the loss (C69) |
| C91 | no new model; `Spec/Expressive.lean`: networks that are large enough | steep `tanh` units separate points along a line (a bounded and an unbounded term cannot cancel), two directions give the gradient; dimension count; C46, C70 and C72 for the losses |
| C92 | `Model/Docker.lean`; `Spec/Docker.lean`: first occurrences in texts | `re.search` finds the first position (induction on the text); cases on the outcomes of the programs |
| C93 | `Model/Special.lean`: the expressions of C85/C86 over finite numbers, infinities and NaN; `Spec/Special.lean`: the numbers that a loss looks at | induction over expressions: a finite result is a result of C85's arithmetic on finite numbers, NaN propagates, runs exist and are finite below the threshold |
| C94 | `Model/Tracing.lean`: a model object with its graphs, each with the signature and the attributes of its first call; `Spec/Tracing.lean`: the program that executes the text at every step | induction over programs of calls and assignments: all graphs have the present attributes as long as nothing is assigned |
| C95 | `Spec/Identify.lean`: a forcing function shows at a point (a comparison function `q` with `-Δq ≤ f`, not positive on the boundary) | comparison principle for `|1/e - 1/e₀| q ± (u - v)`, then C69/C84/C90 for the defect; scaling of the residuals for the negative results |
| C96 | `Spec/StabilityField.lean`: the stability factors of the equation with a coefficient field (exponential barrier in one direction, or `1/r`) | maximum principle for `-∇·(a∇w) + b·∇w + r w` with the barrier `exp(αX) - exp(αx)`; `defect_bound` of C90 holds for variable `a`; C69/C47 for the losses |
| C97 | `Spec/Refinement.lean`: least area of the cells, oscillation of the defect on a cell | the first test function is `γ² (1-ξ²)(1-η²)` with `γ² ≥ 9/4`, so its integral over a cell is at least the area; mean value of the defect plus oscillation; stability of C90 and C96; the bound for the unknown parameter is in `Props/IdentifyExplicit.lean` |
| C98 | `Spec/DriverDomainGrid.lean`: the record on the rectangle, valid configurations | as C79 with the mesh, boundary points and test points of C78; sensors from shuffled test points or from the bounding box (C40); a run is determined by its first state |
| C99 | `Model/Underflow.lean`: the expressions of C85 where an operation also loses at most `η`, and the inputs are the numbers that are read; `Spec/Underflow.lean`: inputs close to the exact ones, two arithmetics with underflow | structural induction: every possible value tends to the exact one as roundoff, `η` and input errors tend to zero; exact values from C47; evaluation in program order is a possible evaluation |
| C100 | `Model/Notebook.lean`: the cells of both notebooks, the class and loss written in the second; `Spec/Notebook.lean`: what figure and table should show | derivatives of the sine functions; the class equals `DenseModel` without attention (case analysis, induction on the layers); the results from the lemmas of C76, the statistics from C53-C56; three points of the grid span a triangle exactly if it has two points and positive extent in each direction |
| C101 | `Model/Tape.lean`: expressions with reverse accumulation, and the recorded computation of each model; `Spec/Tape.lean`: no unit of the network at a kink | induction on expressions: accumulation gives the derivative where all recorded operations are differentiable, and its result is again such an expression, one order lower; network, residual and loss are regular by induction on the layers; their values equal those of the model in a neighbourhood of the weights |
| C102 | `Model/RoundedTraining.lean`: all possible results of the recorded operations and of Adam with accuracy `τ`; `Spec/RoundedTraining.lean`: close states and losses, rearranged programs, no unit at a jump | structural induction: every possible value tends to the exact one where all operations are continuous; the reverse passes apply the registered derivatives, one order higher; composition over the entries of Adam (the denominator is at least `1e-7`) and over the epochs; exact training from C101 |
| C103 | no new model; `Spec/Symmetry.lean`: renumberings with signs, equal units, units with zero weights | induction over the layers: what enters a layer is renumbered; the derivative along a renumbered entry is the derivative along the original one with its sign; Adam acts on each entry alone and is odd in gradient, first moment and weight; equal and zero units are the states that an exchange or a sign change leaves fixed |
| C104 | `Model/AccuracyTests.lean`, `Model/AccuracyInverse.lean`: problems, settings and assertions of the tests; consistency and assembled training as in C71, C76, C78 and C79 | derivatives of the exact solutions and the addition theorems for `cosh` and `sinh`; the mean absolute error is at most the root mean square error (Cauchy-Schwarz); setup and training from the lemmas of C76, C78 and C79, statistics from C53-C56; the number of steps of Adam by induction |
| C105 | `Model/Broadcast.lean`: losses and training steps on tensors of any shape, with broadcasting and `-1` in reshapes | a relation between tensors with shapes and the typed tensors of the exact model is preserved by every operation; for hand-made tensors the dimensions are followed through the operations |
| C106 | `Model/Training.lean` (no new model): the loss as a function of the weights of the output layer | the network is affine in its output layer and the tested residuals are affine in network and derivatives, so every loss is a sum of mean squares of affine functions along a line of weights; the directional derivative is the sum of the gradient entries (`moved_hasDerivAt` of C73), so zero gradient gives the minimum; for parameter and output layer together two states with loss zero around one with loss one |
| C107 | `Model/Training.lean` (no new model): the state of a training after infinitely many steps | converging weights give a converging gradient (the loss is continuously differentiable, C73); both moving averages of Adam then converge to the gradient and its square, and a step of constant length factor that tends to zero forces the gradient to zero; C106 gives the optimality of the output layer; with the schedule a problem whose solution is farther away than all steps together (C74) |
| C108 | `Model/Train.lean` (no new model); `Spec/Penalty.lean`: best candidates up to a tolerance | the losses of one network for two values of `beta` share their parts; adding the two comparisons |
| C109 | `Model/Fespace.lean`, `Model/DataHandler.lean` (no new model); `Spec/Nested.lean`: what one loss says about the other | the row `n * i + j` of every table for order `n` is the row `m * i + j` for order `m` (tensor basis, C13; cells and points do not depend on the order); a sum of squares over some of the rows is at most the sum over all |
| C110 | `Model/Fespace.lean`, `Model/Train.lean` (no new model); `Spec/Noise.lean`: square roots of losses within a distance | only the forcing matrix and the boundary values depend on the data; the loss is a weighted sum of squares, so its square root obeys the triangle inequality (built up term by term) |
| C111 | `Model/Fespace.lean`, `Model/Train.lean` (no new model); `Spec/QuadLimit.lean`: the loss with exact integrals | C69 bounds each residual; the square root of the loss obeys the triangle inequality (C110); one degree for all bounded weights by approximating the integrand, as a function of weights and point, on a compact set |
| C112 | `Model/StudyNan.lean`: the study of C82 with floating-point values, NaN stored as a failed trial; `Spec/StudyNan.lean`: values as extended real numbers | invariant over the events of the study; C93 for the metric; a bisimulation with `Model/Study.lean` for numbers |
| C113 | `Model/UnderflowErrors.lean`: the error metrics for any rounding relation; `Spec/UnderflowErrors.lean`: accuracy up to an absolute amount, norms | a calculus of the accuracy up to an absolute amount for sums, means, roots and quotients; Cauchy-Schwarz for the root mean square; both arithmetics of C99 keep signs |
| C114 | `Model/UnitTests.lean`: unit tests as functions of their parameters; `Spec/UnitTests.lean`: the accepted arguments of `Fespace2D` | C31, C34, C36, C37, C41, C63 put together; a trapezoid for the affine test |
| C115 | `Model/Transformation.lean`: the accuracy test with `fe_transformation_type` as an argument | C29 for each cell; relation between the two spaces kept by the loop of the data handler; `∑ w (1+ξ)(1+η) = 4` gives a point at which the maps differ |
| C116 | nothing new; `Spec/Folding.lean`: all corners turn the same way | the determinant of the bilinear map interpolates its corner values; equality in the triangle inequality; a dent smaller than the distance of the Gauss points from the corner |
| C117 | nothing new; `Spec/FeTypes.lean`: names of the families, comparable losses | C18 for equal tables; C20 for the change between the families; the tables and hence the residuals of a cell are combinations with one matrix, Cauchy–Schwarz |
| C118 | `Model/BuildTest.lean`: the test of the installation; `Spec/BuildTest.lean`: settings that can be built | the equivalence for the set-up of the scripts (C76) and for a training step; induction over the epochs |
| C119 | `Spec/BoundaryMean.lean`: points, strata, mean square errors of the sides, the data of a draw | each stratum contributes its integral up to the oscillation; the rows of the boundary data grouped by side; uniform continuity for the limit |
| C120 | no new definitions: joins C90/C97 and C119 on the rectangle | the boundary of the rectangle is its four sides; each of their points is within a stratum of a drawn one |

## What the code gets wrong

Each item is a theorem (a negation or an exact description), not only a remark.

| finding | theorem |
|---|---|
| `lhs` boundary samples leave slanted edges | `C09_lhs_off_edge` |
| up to three of the requested internal boundary points are lost | `C04_internal_boundary` |
| `fe_order >= 1000` rejected although the message says 1e4 | `C12_fe_order_limit_is_1000` |
| second derivatives of the bilinear map are returned untransformed | `C28_bilinear_second_derivatives_wrong` |
| a degenerate cell with the affine map raises `LinAlgError` | `C28_affine_degenerate`, `C63_constructor` |
| plot statistics count one point per tag too many; 16 tags or an empty tag raise `IndexError` | `C38_plot` |
| `get_sensor_data` returns only 9/10 of the points | `C40_internal` |
| the loss of `cd2d_inverse.py` cannot be called by its model | `C49_inverse`, `C49_cd2d_inverse_unusable` |
| `staircase` is required but ignored | `C50_keys_staircase`, `C50_staircase_ignored` |
| the configuration of `DenseModel_Hard` loses the constraint | `C52_hard_lost` |
| configuration entries added by Keras 3 break `from_config` | `C52_base_entries` |
| default `n_jobs=-1` does not bound the parallel trials by the GPUs | `C58_jobs_default` |
| contour plots are wrong for non-square test grids | `C61_contour_grid` |
| boundary tags are taken from the first cell block of the mesh file | `C62_first_block_wrong` |
| scripts: `model_architecture` is ignored by five of the eight forward scripts; zero epochs end in `NameError`, reporting interval 0 in `ZeroDivisionError`; the last loss in `loss_function.txt` is not that of the saved weights | `C76_architecture_ignored`, `C76_uniform_completes`, `C76_uniform` (`IsRecord`) |
| with attention, values and residuals at a point depend on the whole batch unless the network is constant; the row gradient of the tape is not the derivative at the point | `C77_pointwise_iff`, `C77_gradient_wrong` |
| `main_inverse.py`: with an external mesh it never finishes, nor with a learning rate schedule under TensorFlow 2.9 and 2.10 (`lr.numpy()`); fewer than two epochs end in `IndexError`; `Total Train Time` omits the first epoch; epochs per second too high before the first full interval | `C78_external`, `C78_scheduler`, `C78_completes`, `C78_total_time`, `C78_rate` |
| `main_inverse_domain_usa.py`, `main_inverse_domain_circle.py`: with a learning rate schedule (shipped configuration of the first) they do not finish under TensorFlow 2.9 and 2.10; a missing comma in the labels puts the epochs per second under `Total Train Time`, and the total is not printed | `C79_scheduler`, `C79_time_table` |
| `main_gear_cd2d.py`: the coordinates in the file of exact values are not compared with the mesh | `C80_coordinates_ignored` |
| `optuna_tuner.py:48-65`: trials that earlier runs left in the storage compete with the new ones, whatever their number of epochs was (`load_if_exists=True`) | `C82_earlier_run` |
| `examples/optuna_examples/main.py:57-71`: `--optimized` prints the best parameters and exits; no model is trained with them. Without a GPU it always ends with an exception | `C82_optimized`, `C82_no_gpu` |
| mesh and sensor plots and `plot_adaptive_mesh` never close their figure; the sensor plot is always `sensor_points.png` in the working directory; boundary points of the third tag have the marker of the quadrature points | `C83_mesh`, `C83_open_figures`, `C83_sensors`, `C83_residuals` |
| `plot_multiple_loss_function` silently drops curves without a label; `plot_adaptive_mesh` always fails with matplotlib 3.8 or later | `C83_multiple`, `C83_residuals` |
| the scripts on the rectangle fail with `TypeError` for one test point in a direction | `C76_uniform_completes` (`ValidSetup.testPoints`), `C83_contour` |
| scripts: entries of the configuration file that must be present but have no effect (exact solution except in the gear script, architecture, rectangle on mesh files) | `C81_ignored` |
| the first line of a sensor file without header is never used | `C40_first_line_unused` |
| concurrent trials may share a GPU | `C65_shared_gpu` |
| `read_mesh` on an internal geometry raises `TypeError` after changing it; optimised internal geometry cannot be written | `C66_internal_read`, `C66_optimized_write` |
| the stored internal mesh has coordinates in place of vertex numbers | `C67_connectivity_wrong` |
| `docker_initialise.py`: an error message of `nvidia-smi` counts as a driver version and the GPU check passes; a missing logo converter or `python3`, or an output of `nvcc` without release, ends in an exception | `C92_gpu`, `C92_false_pass`, `C92_failures` |
| `get_errors` of the example utilities raises `NameError` on every call | `C92_get_errors` |
| relative errors of an exact solution that is zero at all test points are NaN or infinite; a relative L2 or L1 error is reported as zero when the norm of the exact solution overflows | `C93_zero_solution`, `C93_relative_overflow` |
| without boundary points, sensors or test functions the loss is NaN, and no message says why | `C93_dense_nan`, `C93_inverse_nan` |
| attributes of a model (boundary values, forcing, loss function) that are assigned after its first training step have no effect on later steps with the same signature; each new Python number for `beta` builds a new graph | `C94_first_step`, `C94_assignment_lost`, `C94_graphs`, `C94_signatures` |
| the inverse models accept data that cannot determine the parameter: without forcing the loss is smallest for the parameter zero whatever the sensors say, and with zero boundary and sensor values network and parameter can be scaled against each other | `C95_no_forcing`, `C95_scaling` |
| the coefficient field of `DenseModel_Inverse_Domain` is invisible where the gradient of the solution vanishes at the quadrature points; nothing regularises it | `C96_invisible` |
| `main_inverse_domain_circle.py` on an internal mesh: the CSV file is not used for the sensors, but `exact.txt` and all errors are its third column, compared line by line with the prediction on the tensor grid | `C98_circle`, `C98_circle_reference` |
| a boundary or sensor loss is reported as exactly zero when the squares of all errors underflow | `C99_vanishing` |
| a root-mean-square error is reported as exactly zero when the squares of all differences underflow, and the relative one divides by zero when those of the exact solution do | `C113_vanishing` |
| unit tests: in `test_valid_cell_number` only the first of the five calls in each `pytest.raises` block is made; the area test on a mesh file with `"affine"` does not compute the area of the cells unless they are parallelograms | `C114_raises`, `C114_quadrature_complex`, `C114_quadrature_affine` |
| cells with a re-entrant corner or crossing sides are accepted without warning and integrated with too much weight; with `gauss-legendre` not even the sum of the weights need show it | `C116_lobatto`, `C116_legendre` |
| two of the three values of `fe_type` in `test_poisson_accuracy_fetype_quadtype` (`jacobi`, `legendre_special`) run the same computation up to rounding | `C117_accuracy_tests` |
| the text of the notebooks states the equation as `∇²u = f`; their functions satisfy `∇²u = -f` | `C100_sign` |
| with the ReLU the Poisson loss gives no gradient to any bias, so only the boundary loss trains biases | `C101_relu_bias` |
| with the ReLU and the initial biases the tape finds the gradient zero at the origin whatever the kernels are, also where the network is the function `x` | `C101_relu_origin`, `C101_kink` |
| with the ReLU, losses do not depend continuously on the weights: at a kink an arbitrarily small change moves the PDE loss by a fixed amount | `C102_jump` |
| accuracy tests: the condition on the mean absolute error never decides; with the scheduler, the condition on the learning rate only counts steps, and under TensorFlow 2.9 and 2.10 `lr` has no value to compare (`lrNumpy`) | `C104_uniform`, `C104_rate` |
| accuracy test with an unknown coefficient function: `exact_solution` has no influence, sensor values and reference values are those of the file; values are compared with vertices by position, the points of the file are not looked at | `C104_domain`, `C104_domain_exact` |
| accuracy tests with an unknown constant: `eps = 2` among the parameters has no influence, the exact solution fits `eps = 0.3` only | `C104_inverse_problem` |
| tensors put together by hand: points of a single cell are used for all cells, and boundary values of rank 1 give a loss with one entry per boundary value, both without an error (the data handler never produces them) | `C105_poisson_accepts`, `C105_flat_boundary` |
| with the learning-rate schedule, that the weights stop moving says nothing about the gradient: for every schedule there is a problem with an attainable loss of zero where the training converges to weights that are not stationary | `C107_scheduler` |
| the boundary loss gives every side of a rectangle the same weight, whatever its length | `C119_sides` |

Partial claims: C58, C62, C65, C67, because the code violates them as stated; the proved part and the
negation are both in the manifest.
