import Verif.Model.Network
import Verif.Model.Geometry
import Mathlib.Analysis.SpecialFunctions.Trigonometric.Basic
import Mathlib.Analysis.SpecialFunctions.Exp
import Mathlib.Analysis.Complex.Trigonometric

/-! # Functions of the driver scripts in `/repo/examples`

The functions are given for scalar arguments; numpy applies them entry by entry. -/

namespace FastVPINNs

/-- `examples/forward_problems_2d/hard_boundary_constraints/poisson_2d/main_poisson2d_hard.py:162-167`:
the factor for one row of inputs (`inputs[:, 0:1]` and `inputs[:, 1:2]` are its two columns). -/
noncomputable def hardAnsatz (x : List ℝ) : ℝ :=
  Real.tanh (4.0 * Real.pi * x.getD 0 0) * Real.tanh (4.0 * Real.pi * x.getD 1 0)
    * Real.tanh (4.0 * Real.pi * (x.getD 0 0 - 1.0)) * Real.tanh (4.0 * Real.pi * (x.getD 1 0 - 1.0))

/-- `main_poisson2d_hard.py:153-169` (`apply_hard_boundary_constraints`). -/
noncomputable def applyHardBoundaryConstraints (inputs x : Batch) : Batch :=
  List.zipWith (fun r u => u.map fun v => hardAnsatz r * v) inputs x

/-! ### The uniform-mesh Poisson problem

`examples/forward_problems_2d/uniform_mesh/poisson_2d/sin_cos.py`; the files
`hard_boundary_constraints/poisson_2d/sin_cos.py` (same formulas, lines 8-86) and
`optuna_examples/sin_cos.py` (identical file) are the same problem. -/
namespace UniformPoisson

/-- `sin_cos.py:8-13` (`left_boundary`). -/
def leftBoundary (_x _y : ℝ) : ℝ := 1 * 0.0

/-- `sin_cos.py:16-21` (`right_boundary`). -/
def rightBoundary (_x _y : ℝ) : ℝ := 1 * 0.0

/-- `sin_cos.py:24-29` (`top_boundary`). -/
def topBoundary (_x _y : ℝ) : ℝ := 1 * 0.0

/-- `sin_cos.py:32-37` (`bottom_boundary`). -/
def bottomBoundary (_x _y : ℝ) : ℝ := 1 * 0.0

/-- `sin_cos.py:40-52` (`rhs`). -/
noncomputable def rhs (x y : ℝ) : ℝ :=
  let omegaX := 4.0 * Real.pi
  let omegaY := 4.0 * Real.pi
  (-2.0) * omegaX ^ 2 * (Real.sin (omegaX * x) * Real.sin (omegaY * y))

/-- `sin_cos.py:55-66` (`exact_solution`). -/
noncomputable def exactSolution (x y : ℝ) : ℝ :=
  let omegaX := 4.0 * Real.pi
  let omegaY := 4.0 * Real.pi
  (-1.0) * Real.sin (omegaX * x) * Real.sin (omegaY * y)

/-- `sin_cos.py:69-73` (`get_boundary_function_dict`). -/
def boundaryFunctionDict : List (ℤ × (ℝ → ℝ → ℝ)) :=
  [(1000, bottomBoundary), (1001, rightBoundary), (1002, topBoundary), (1003, leftBoundary)]

/-- `sin_cos.py:83-89` (`get_bilinear_params_dict`). -/
noncomputable def bilinearParamsDict : List (String × ℝ) := [("eps", 1.0)]

end UniformPoisson

/-! ### The Poisson problem on complex meshes

`examples/forward_problems_2d/complex_mesh/USA/sin_cos.py`;
`complex_mesh/poisson2d/sin_cos.py` has the same formulas. -/
namespace ComplexPoisson

/-- `sin_cos.py:7-16` (`boundary`). -/
noncomputable def boundary (x y : ℝ) : ℝ :=
  let omegaX := 2.0 * Real.pi
  let omegaY := 2.0 * Real.pi
  (-1.0) * Real.sin (omegaX * x) * Real.sin (omegaY * y)

/-- `sin_cos.py:19-27` (`rhs`). -/
noncomputable def rhs (x y : ℝ) : ℝ :=
  let omegaX := 2.0 * Real.pi
  let omegaY := 2.0 * Real.pi
  (-2.0) * omegaX ^ 2 * (Real.sin (omegaX * x) * Real.sin (omegaY * y))

/-- `sin_cos.py:30-40` (`exact_solution`). -/
noncomputable def exactSolution (x y : ℝ) : ℝ :=
  let omegaX := 2.0 * Real.pi
  let omegaY := 2.0 * Real.pi
  (-1.0) * Real.sin (omegaX * x) * Real.sin (omegaY * y)

/-- `sin_cos.py:43-47` (`get_boundary_function_dict`). -/
noncomputable def boundaryFunctionDict : List (ℤ × (ℝ → ℝ → ℝ)) := [(1000, boundary)]

/-- `sin_cos.py:57-63` (`get_bilinear_params_dict`). -/
noncomputable def bilinearParamsDict : List (String × ℝ) := [("eps", 1.0)]

end ComplexPoisson

/-! ### The Helmholtz problem

`examples/forward_problems_2d/uniform_mesh/helmholtz_2d/helmholtz_example.py` and
`complex_mesh/helmholtz2d/helmholtz_example.py`, which differ in the boundary dictionary only. -/
namespace Helmholtz

/-- `uniform_mesh/helmholtz_2d/helmholtz_example.py:8-35` (the four boundary functions, all with the same
formula) and `complex_mesh/helmholtz2d/helmholtz_example.py:8-12` (`circle_boundary`). -/
noncomputable def boundary (x y : ℝ) : ℝ := (x + y) * Real.sin (Real.pi * x) * Real.sin (Real.pi * y)

/-- `helmholtz_example.py:38-51` (`complex_mesh` file: 15-28) (`rhs`). -/
noncomputable def rhs (x y : ℝ) : ℝ :=
  let term1 := 2 * Real.pi * Real.cos (Real.pi * y) * Real.sin (Real.pi * x)
  let term2 := 2 * Real.pi * Real.cos (Real.pi * x) * Real.sin (Real.pi * y)
  let term3 := (x + y) * Real.sin (Real.pi * x) * Real.sin (Real.pi * y)
  let term4 := -2 * Real.pi ^ 2 * (x + y) * Real.sin (Real.pi * x) * Real.sin (Real.pi * y)
  term1 + term2 + term3 + term4

/-- `helmholtz_example.py:54-59` (`complex_mesh` file: 31-36) (`exact_solution`). -/
noncomputable def exactSolution (x y : ℝ) : ℝ :=
  (x + y) * Real.sin (Real.pi * x) * Real.sin (Real.pi * y)

/-- `uniform_mesh/helmholtz_2d/helmholtz_example.py:62-66` (`get_boundary_function_dict`). -/
noncomputable def boundaryFunctionDict : List (ℤ × (ℝ → ℝ → ℝ)) :=
  [(1000, boundary), (1001, boundary), (1002, boundary), (1003, boundary)]

/-- `complex_mesh/helmholtz2d/helmholtz_example.py:39-43` (`get_boundary_function_dict`). -/
noncomputable def complexBoundaryFunctionDict : List (ℤ × (ℝ → ℝ → ℝ)) := [(1000, boundary)]

/-- `helmholtz_example.py:76-83` (`complex_mesh` file: 53-60) (`get_bilinear_params_dict`). -/
noncomputable def bilinearParamsDict : List (String × ℝ) := [("k", 1.0), ("eps", 1.0)]

end Helmholtz

/-! ### The convection-diffusion problem

`examples/forward_problems_2d/complex_mesh/cd2d/cd2d_example.py`. -/
namespace ConvectionDiffusion

/-- `cd2d_example.py:8-12` (`circle_boundary`). -/
noncomputable def boundary (x y : ℝ) : ℝ := Real.cos (x ^ 2 + y ^ 2)

/-- `cd2d_example.py:15-26` (`rhs`). -/
noncomputable def rhs (x y : ℝ) : ℝ :=
  4.0 * x ^ 2 * Real.cos (x ^ 2 + y ^ 2) - 2.0 * x * Real.sin (x ^ 2 + y ^ 2)
    + 4.0 * y ^ 2 * Real.cos (x ^ 2 + y ^ 2) + 4.0 * Real.sin (x ^ 2 + y ^ 2)

/-- `cd2d_example.py:29-35` (`exact_solution`). -/
noncomputable def exactSolution (x y : ℝ) : ℝ := Real.cos (x ^ 2 + y ^ 2)

/-- `cd2d_example.py:38-42` (`get_boundary_function_dict`). -/
noncomputable def boundaryFunctionDict : List (ℤ × (ℝ → ℝ → ℝ)) := [(1000, boundary)]

/-- `cd2d_example.py:52-61` (`get_bilinear_params_dict`). -/
noncomputable def bilinearParamsDict : List (String × ℝ) :=
  [("eps", 1.0), ("b_x", 1.0), ("b_y", 0.0), ("c", 0.0)]

end ConvectionDiffusion

/-! ### The convection-diffusion problem on the gear

`examples/forward_problems_2d/complex_mesh/cd2d_gear/cd2d_gear_example.py`. -/
namespace Gear

/-- `cd2d_gear_example.py:24-30` (`rhs`). -/
noncomputable def rhs (x _y : ℝ) : ℝ := 50 * Real.sin x + Real.cos x

/-- `cd2d_gear_example.py:33-39` (`exact_solution`; the radius computed on line 37 is not used). -/
def exactSolution (_x _y : ℝ) : ℝ := 1 * 0

/-- `cd2d_gear_example.py:56-65` (`get_bilinear_params_dict`). -/
noncomputable def bilinearParamsDict : List (String × ℝ) :=
  [("eps", 1), ("b_x", 0.1), ("b_y", 0.0), ("c", 0.0)]

end Gear

/-! ### The inverse problem with a constant diffusion coefficient

`examples/inverse_problems_2d/const_inverse_poisson2d/inverse_uniform.py`. -/
namespace ConstInverse

/-- `inverse_uniform.py:9` (`EPS`). -/
noncomputable def EPS : ℝ := 0.3

/-- `inverse_uniform.py:12-41` (the four boundary functions, all with the same formula). -/
noncomputable def boundary (x _y : ℝ) : ℝ :=
  Real.sin x * Real.tanh x * Real.exp (-1.0 * EPS * x ^ 2) * 10

/-- `inverse_uniform.py:44-64` (`rhs`). -/
noncomputable def rhs (x _y : ℝ) : ℝ :=
  -EPS * (40.0 * x * EPS * (Real.tanh x ^ 2 - 1) * Real.sin x
      - 40.0 * x * EPS * Real.cos x * Real.tanh x
      + 10 * EPS * (4.0 * x ^ 2 * EPS - 2.0) * Real.sin x * Real.tanh x
      + 20 * (Real.tanh x ^ 2 - 1) * Real.sin x * Real.tanh x
      - 20 * (Real.tanh x ^ 2 - 1) * Real.cos x
      - 10 * Real.sin x * Real.tanh x)
    * Real.exp (-1.0 * x ^ 2 * EPS)

/-- `inverse_uniform.py:67-74` (`exact_solution`). -/
noncomputable def exactSolution (x _y : ℝ) : ℝ :=
  Real.sin x * Real.tanh x * Real.exp (-1.0 * EPS * x ^ 2) * 10

/-- `inverse_uniform.py:77-81` (`get_boundary_function_dict`). -/
noncomputable def boundaryFunctionDict : List (ℤ × (ℝ → ℝ → ℝ)) :=
  [(1000, boundary), (1001, boundary), (1002, boundary), (1003, boundary)]

/-- `inverse_uniform.py:91-98` (`get_bilinear_params_dict`). -/
noncomputable def bilinearParamsDict : List (String × ℝ) := [("eps", EPS)]

/-- `inverse_uniform.py:101-108` (`get_inverse_params_dict`, the initial guess). -/
def inverseParamsDict : List (String × ℝ) := [("eps", 2)]

/-- `inverse_uniform.py:111-118` (`get_inverse_params_actual_dict`). -/
noncomputable def inverseParamsActualDict : List (String × ℝ) := [("eps", EPS)]

end ConstInverse

/-! ### The inverse problem with a space-dependent diffusion coefficient

`examples/inverse_problems_2d/domain_inverse_cd2d/USA/cd2d_inverse_usa_example.py`. -/
namespace DomainInverseUSA

/-- `cd2d_inverse_usa_example.py:9-16` (`usa_boundary`). -/
noncomputable def boundary (x y : ℝ) : ℝ := Real.exp (-0.1 * y) * Real.cos x

/-- `cd2d_inverse_usa_example.py:19-37` (`rhs`). -/
noncomputable def rhs (x y : ℝ) : ℝ :=
  (-0.1 * x * Real.sin (x * y) * Real.cos x - y * Real.sin x * Real.sin (x * y)
      + 1.99 * Real.cos x * Real.cos (x * y))
    * Real.exp (-0.1 * y) * Real.sin x

/-- `cd2d_inverse_usa_example.py:40-47` (`exact_solution`). -/
noncomputable def exactSolution (x y : ℝ) : ℝ := Real.exp (-0.1 * y) * Real.cos x

/-- `cd2d_inverse_usa_example.py:50-54` (`get_boundary_function_dict`). -/
noncomputable def boundaryFunctionDict : List (ℤ × (ℝ → ℝ → ℝ)) := [(1000, boundary)]

/-- `cd2d_inverse_usa_example.py:64-74` (`get_bilinear_params_dict`). -/
noncomputable def bilinearParamsDict : List (String × ℝ) :=
  [("eps", 20), ("b_x", 0.0), ("b_y", 0), ("c", 0.0)]

/-- `cd2d_inverse_usa_example.py:77-83` (`get_inverse_params_actual_dict`): its `"eps"` entry. -/
noncomputable def actualEps (x y : ℝ) : ℝ := Real.sin x * Real.cos (x * y)

end DomainInverseUSA

/-! ### `inverse_problems_2d/domain_inverse_cd2d/circle` -/

namespace DomainInverseCircle

/-- `cd2d_inverse_circle_example.py:9-14` (`circle_boundary`). -/
noncomputable def boundary (_x _y : ℝ) : ℝ := 1 * 0.0

/-- `cd2d_inverse_circle_example.py:17-25` (`rhs`). -/
noncomputable def rhs (_x _y : ℝ) : ℝ := 10.0 * 1

/-- `cd2d_inverse_circle_example.py:28-35` (`exact_solution`). -/
noncomputable def exactSolution (_x _y : ℝ) : ℝ := 1 * 0.0

/-- `cd2d_inverse_circle_example.py:38-42` (`get_boundary_function_dict`). -/
noncomputable def boundaryFunctionDict : List (ℤ × (ℝ → ℝ → ℝ)) := [(1000, boundary)]

/-- `cd2d_inverse_circle_example.py:52-62` (`get_bilinear_params_dict`). -/
noncomputable def bilinearParamsDict : List (String × ℝ) :=
  [("eps", 0.1), ("b_x", 1), ("b_y", 0), ("c", 0.0)]

/-- `cd2d_inverse_circle_example.py:65-71` (`get_inverse_params_actual_dict`): its `"eps"` entry. -/
noncomputable def actualEps (x y : ℝ) : ℝ := 0.5 * (Real.sin x + Real.cos y)

end DomainInverseCircle

/-! ### Contour plots -/

/-- `v.reshape(nx, ny)` of a flat array (C order), as in
`examples/forward_problems_2d/uniform_mesh/poisson_2d/main_poisson2d.py:176-178`. -/
def reshapeMatrix (nx ny : ℕ) (v : List ℝ) : Except PyErr (Fin nx → Fin ny → ℝ) :=
  if v.length = nx * ny then .ok fun i j => v.getD (i.val * ny + j.val) 0 else .error .valueError

/-- `main_poisson2d.py:171-178`: the three matrices handed to the contour plots, from the test points and
the exact solution.  (The other drivers have the same lines: `hard_boundary_constraints/poisson_2d/
main_poisson2d_hard.py:191-197`, `uniform_mesh/helmholtz_2d/main_helmholtz.py:171-178`,
`optuna_examples/main.py:222-229`.) -/
noncomputable def contourMatrices (nx ny : ℕ) (u : ℝ → ℝ → ℝ) (testPoints : List (ℝ × ℝ)) :
    Except PyErr ((Fin nx → Fin ny → ℝ) × (Fin nx → Fin ny → ℝ) × (Fin nx → Fin ny → ℝ)) := do
  let yExact := testPoints.map fun p => u p.1 p.2
  let X ← reshapeMatrix nx ny (testPoints.map Prod.fst)
  let Y ← reshapeMatrix nx ny (testPoints.map Prod.snd)
  let Z ← reshapeMatrix nx ny yExact
  return (X, Y, Z)

end FastVPINNs
