import Verif.Model.ConfigFile

/-! # The shipped configuration files

The trees `yaml.safe_load` returns for the YAML files beside the scripts, with all their entries and in their order
(comments are left out). -/

namespace FastVPINNs

/-- `examples/forward_problems_2d/uniform_mesh/poisson_2d/input.yaml`. -/
noncomputable def yamlUniformPoisson : Yaml :=
  .dict
    [("experimentation", .dict
      [("output_path", .str "output/poisson2d/1")]),
     ("geometry", .dict
      [("mesh_generation_method", .str "internal"),
       ("generate_mesh_plot", .bool true),
       ("internal_mesh_params", .dict
        [("x_min", .int 0), ("x_max", .int 1), ("y_min", .int 0), ("y_max", .int 1),
         ("n_cells_x", .int 4), ("n_cells_y", .int 4), ("n_boundary_points", .int 400),
         ("n_test_points_x", .int 100), ("n_test_points_y", .int 100)]),
       ("exact_solution", .dict
        [("exact_solution_generation", .str "internal"), ("exact_solution_file_name", .str "")]),
       ("mesh_type", .str "quadrilateral"),
       ("external_mesh_params", .dict
        [("mesh_file_name", .str "meshes/hemker.mesh"), ("boundary_refinement_level", .int 4),
         ("boundary_sampling_method", .str "uniform")])]),
     ("fe", .dict
      [("fe_order", .int 6), ("fe_type", .str "legendre"), ("quad_order", .int 10),
       ("quad_type", .str "gauss-jacobi")]),
     ("pde", .dict
      [("beta", .int 10)]),
     ("model", .dict
      [("model_architecture", .list [.int 2, .int 50, .int 50, .int 50, .int 50, .int 1]),
       ("activation", .str "tanh"),
       ("use_attention", .bool false),
       ("epochs", .int 10000),
       ("dtype", .str "float32"),
       ("set_memory_growth", .bool false),
       ("learning_rate", .dict
        [("initial_learning_rate", .float 0.001), ("use_lr_scheduler", .bool false),
         ("decay_steps", .int 1000), ("decay_rate", .float 0.99), ("staircase", .bool false)])]),
     ("logging", .dict
      [("update_console_output", .int 5000)])]

/-- `examples/forward_problems_2d/uniform_mesh/helmholtz_2d/input.yaml`. -/
noncomputable def yamlHelmholtz : Yaml :=
  .dict
    [("experimentation", .dict
      [("output_path", .str "output/helmholtz/1")]),
     ("geometry", .dict
      [("mesh_generation_method", .str "internal"),
       ("generate_mesh_plot", .bool true),
       ("internal_mesh_params", .dict
        [("x_min", .int 0), ("x_max", .int 1), ("y_min", .int 0), ("y_max", .int 1),
         ("n_cells_x", .int 4), ("n_cells_y", .int 4), ("n_boundary_points", .int 400),
         ("n_test_points_x", .int 100), ("n_test_points_y", .int 100)]),
       ("exact_solution", .dict
        [("exact_solution_generation", .str "internal"),
         ("exact_solution_file_name", .str "fem_solutions/neumann_solutions/solution_problem_3.txt")]),
       ("mesh_type", .str "quadrilateral"),
       ("external_mesh_params", .dict
        [("mesh_file_name", .str "meshes/hemker.mesh"), ("boundary_refinement_level", .int 4),
         ("boundary_sampling_method", .str "uniform")])]),
     ("fe", .dict
      [("fe_order", .int 6), ("fe_type", .str "legendre"), ("quad_order", .int 10),
       ("quad_type", .str "gauss-jacobi")]),
     ("pde", .dict
      [("beta", .int 10)]),
     ("model", .dict
      [("model_architecture", .list [.int 2, .int 30, .int 30, .int 30, .int 1]),
       ("activation", .str "tanh"),
       ("use_attention", .bool false),
       ("epochs", .int 10000),
       ("dtype", .str "float32"),
       ("set_memory_growth", .bool false),
       ("learning_rate", .dict
        [("initial_learning_rate", .float 0.001), ("use_lr_scheduler", .bool false),
         ("decay_steps", .int 1000), ("decay_rate", .float 0.99), ("staircase", .bool false)])]),
     ("logging", .dict
      [("update_console_output", .int 5000)])]

/-- `examples/forward_problems_2d/hard_boundary_constraints/poisson_2d/input.yaml`. -/
noncomputable def yamlHard : Yaml :=
  .dict
    [("experimentation", .dict
      [("output_path", .str "output/poisson2d/1")]),
     ("geometry", .dict
      [("mesh_generation_method", .str "internal"),
       ("generate_mesh_plot", .bool true),
       ("internal_mesh_params", .dict
        [("x_min", .int 0), ("x_max", .int 1), ("y_min", .int 0), ("y_max", .int 1),
         ("n_cells_x", .int 4), ("n_cells_y", .int 4), ("n_boundary_points", .int 400),
         ("n_test_points_x", .int 100), ("n_test_points_y", .int 100)]),
       ("mesh_type", .str "quadrilateral"),
       ("external_mesh_params", .dict
        [("mesh_file_name", .str "meshes/rect.mesh"), ("boundary_refinement_level", .int 4),
         ("boundary_sampling_method", .str "uniform")])]),
     ("fe", .dict
      [("fe_order", .int 5), ("fe_type", .str "legendre"), ("quad_order", .int 20),
       ("quad_type", .str "gauss-jacobi")]),
     ("pde", .dict
      [("beta", .int 10)]),
     ("model", .dict
      [("model_architecture", .list [.int 2, .int 30, .int 30, .int 30, .int 1]),
       ("activation", .str "tanh"),
       ("use_attention", .bool false),
       ("epochs", .int 10000),
       ("dtype", .str "float32"),
       ("set_memory_growth", .bool false),
       ("learning_rate", .dict
        [("initial_learning_rate", .float 0.001), ("use_lr_scheduler", .bool false),
         ("decay_steps", .int 1000), ("decay_rate", .float 0.99), ("staircase", .bool false)])]),
     ("logging", .dict
      [("update_console_output", .int 5000)])]

/-- `examples/forward_problems_2d/complex_mesh/poisson2d/input.yaml`. -/
noncomputable def yamlComplexPoisson : Yaml :=
  .dict
    [("experimentation", .dict
      [("output_path", .str "output/poisson2d/1")]),
     ("geometry", .dict
      [("mesh_generation_method", .str "external"),
       ("generate_mesh_plot", .bool true),
       ("internal_mesh_params", .dict
        [("x_min", .int 0), ("x_max", .int 1), ("y_min", .int 0), ("y_max", .int 1),
         ("n_cells_x", .int 4), ("n_cells_y", .int 4), ("n_boundary_points", .int 400),
         ("n_test_points_x", .int 100), ("n_test_points_y", .int 100)]),
       ("exact_solution", .dict
        [("exact_solution_generation", .str "external"), ("exact_solution_file_name", .str "")]),
       ("mesh_type", .str "quadrilateral"),
       ("external_mesh_params", .dict
        [("mesh_file_name", .str "../meshes/circle_quad.mesh"), ("boundary_refinement_level", .int 4),
         ("boundary_sampling_method", .str "uniform")])]),
     ("fe", .dict
      [("fe_order", .int 2), ("fe_type", .str "legendre"), ("quad_order", .int 3),
       ("quad_type", .str "gauss-jacobi")]),
     ("pde", .dict
      [("beta", .int 10)]),
     ("model", .dict
      [("model_architecture", .list [.int 2, .int 30, .int 30, .int 30, .int 1]),
       ("activation", .str "tanh"),
       ("use_attention", .bool false),
       ("epochs", .int 6000),
       ("dtype", .str "float32"),
       ("set_memory_growth", .bool false),
       ("learning_rate", .dict
        [("initial_learning_rate", .float 0.001), ("use_lr_scheduler", .bool false),
         ("decay_steps", .int 1000), ("decay_rate", .float 0.99), ("staircase", .bool false)])]),
     ("logging", .dict
      [("update_console_output", .int 2000)])]

/-- `examples/forward_problems_2d/complex_mesh/USA/input.yaml`. -/
noncomputable def yamlUSA : Yaml :=
  .dict
    [("experimentation", .dict
      [("output_path", .str "output/poisson2d/1")]),
     ("geometry", .dict
      [("mesh_generation_method", .str "external"),
       ("generate_mesh_plot", .bool false),
       ("internal_mesh_params", .dict
        [("x_min", .int 0), ("x_max", .int 1), ("y_min", .int 0), ("y_max", .int 1),
         ("n_cells_x", .int 4), ("n_cells_y", .int 4), ("n_boundary_points", .int 400),
         ("n_test_points_x", .int 100), ("n_test_points_y", .int 100)]),
       ("exact_solution", .dict
        [("exact_solution_generation", .str "external"), ("exact_solution_file_name", .str "")]),
       ("mesh_type", .str "quadrilateral"),
       ("external_mesh_params", .dict
        [("mesh_file_name", .str "../meshes/usa.mesh"), ("boundary_refinement_level", .int 4),
         ("boundary_sampling_method", .str "uniform")])]),
     ("fe", .dict
      [("fe_order", .int 3), ("fe_type", .str "legendre"), ("quad_order", .int 4),
       ("quad_type", .str "gauss-jacobi")]),
     ("pde", .dict
      [("beta", .int 10)]),
     ("model", .dict
      [("model_architecture", .list [.int 2, .int 30, .int 30, .int 30, .int 1]),
       ("activation", .str "tanh"),
       ("use_attention", .bool false),
       ("epochs", .int 30000),
       ("dtype", .str "float32"),
       ("set_memory_growth", .bool false),
       ("learning_rate", .dict
        [("initial_learning_rate", .float 0.001), ("use_lr_scheduler", .bool false),
         ("decay_steps", .int 1000), ("decay_rate", .float 0.99), ("staircase", .bool false)])]),
     ("logging", .dict
      [("update_console_output", .int 5000)])]

/-- `examples/forward_problems_2d/complex_mesh/helmholtz2d/input.yaml`. -/
noncomputable def yamlComplexHelmholtz : Yaml :=
  .dict
    [("experimentation", .dict
      [("output_path", .str "output/helmholtz/1")]),
     ("geometry", .dict
      [("mesh_generation_method", .str "external"),
       ("generate_mesh_plot", .bool true),
       ("internal_mesh_params", .dict
        [("x_min", .int 0), ("x_max", .int 1), ("y_min", .int 0), ("y_max", .int 1),
         ("n_cells_x", .int 4), ("n_cells_y", .int 4), ("n_boundary_points", .int 400),
         ("n_test_points_x", .int 100), ("n_test_points_y", .int 100)]),
       ("exact_solution", .dict
        [("exact_solution_generation", .str "internal"), ("exact_solution_file_name", .str "")]),
       ("mesh_type", .str "quadrilateral"),
       ("external_mesh_params", .dict
        [("mesh_file_name", .str "../meshes/circle_quad.mesh"), ("boundary_refinement_level", .int 4),
         ("boundary_sampling_method", .str "uniform")])]),
     ("fe", .dict
      [("fe_order", .int 4), ("fe_type", .str "jacobi"), ("quad_order", .int 5),
       ("quad_type", .str "gauss-jacobi")]),
     ("pde", .dict
      [("beta", .int 10)]),
     ("model", .dict
      [("model_architecture", .list [.int 2, .int 30, .int 30, .int 30, .int 1]),
       ("activation", .str "tanh"),
       ("use_attention", .bool false),
       ("epochs", .int 10000),
       ("dtype", .str "float32"),
       ("set_memory_growth", .bool false),
       ("learning_rate", .dict
        [("initial_learning_rate", .float 0.001), ("use_lr_scheduler", .bool false),
         ("decay_steps", .int 1000), ("decay_rate", .float 0.99), ("staircase", .bool false)])]),
     ("logging", .dict
      [("update_console_output", .int 5000)])]

/-- `examples/forward_problems_2d/complex_mesh/cd2d/input.yaml`. -/
noncomputable def yamlCd2d : Yaml :=
  .dict
    [("experimentation", .dict
      [("output_path", .str "output/cd2d/1")]),
     ("geometry", .dict
      [("mesh_generation_method", .str "external"),
       ("generate_mesh_plot", .bool true),
       ("internal_mesh_params", .dict
        [("x_min", .int 0), ("x_max", .int 1), ("y_min", .int 0), ("y_max", .int 1),
         ("n_cells_x", .int 4), ("n_cells_y", .int 4), ("n_boundary_points", .int 400),
         ("n_test_points_x", .int 100), ("n_test_points_y", .int 100)]),
       ("exact_solution", .dict
        [("exact_solution_generation", .str "internal"), ("exact_solution_file_name", .str "")]),
       ("mesh_type", .str "quadrilateral"),
       ("external_mesh_params", .dict
        [("mesh_file_name", .str "../meshes/circle_quad.mesh"), ("boundary_refinement_level", .int 4),
         ("boundary_sampling_method", .str "uniform")])]),
     ("fe", .dict
      [("fe_order", .int 3), ("fe_type", .str "jacobi"), ("quad_order", .int 4),
       ("quad_type", .str "gauss-jacobi")]),
     ("pde", .dict
      [("beta", .int 10)]),
     ("model", .dict
      [("model_architecture", .list [.int 2, .int 50, .int 50, .int 50, .int 50, .int 1]),
       ("activation", .str "tanh"),
       ("use_attention", .bool false),
       ("epochs", .int 10000),
       ("dtype", .str "float32"),
       ("set_memory_growth", .bool false),
       ("learning_rate", .dict
        [("initial_learning_rate", .float 0.001), ("use_lr_scheduler", .bool false),
         ("decay_steps", .int 1000), ("decay_rate", .float 0.99), ("staircase", .bool false)])]),
     ("logging", .dict
      [("update_console_output", .int 5000)])]

/-- `examples/forward_problems_2d/complex_mesh/cd2d_gear/input.yaml`. -/
noncomputable def yamlGear : Yaml :=
  .dict
    [("experimentation", .dict
      [("output_path", .str "output/cd2d_gear")]),
     ("geometry", .dict
      [("mesh_generation_method", .str "external"),
       ("generate_mesh_plot", .bool false),
       ("internal_mesh_params", .dict
        [("x_min", .int 0), ("x_max", .int 1), ("y_min", .int 0), ("y_max", .int 1),
         ("n_cells_x", .int 8), ("n_cells_y", .int 8), ("n_boundary_points", .int 2000),
         ("n_test_points_x", .int 100), ("n_test_points_y", .int 100)]),
       ("exact_solution", .dict
        [("exact_solution_generation", .str "external"),
         ("exact_solution_file_name", .str "fem_output_gear_forward_sin.csv")]),
       ("mesh_type", .str "quadrilateral"),
       ("external_mesh_params", .dict
        [("mesh_file_name", .str "../meshes/gear.mesh"), ("boundary_refinement_level", .int 2),
         ("boundary_sampling_method", .str "uniform")])]),
     ("fe", .dict
      [("fe_order", .int 4), ("fe_type", .str "jacobi"), ("quad_order", .int 5),
       ("quad_type", .str "gauss-jacobi")]),
     ("pde", .dict
      [("beta", .int 5)]),
     ("model", .dict
      [("model_architecture", .list [.int 2, .int 50, .int 50, .int 50, .int 1]),
       ("activation", .str "tanh"),
       ("use_attention", .bool false),
       ("epochs", .int 150000),
       ("dtype", .str "float32"),
       ("set_memory_growth", .bool false),
       ("learning_rate", .dict
        [("initial_learning_rate", .float 0.005), ("use_lr_scheduler", .bool true),
         ("decay_steps", .int 1000), ("decay_rate", .float 0.99), ("staircase", .bool false)])]),
     ("logging", .dict
      [("update_console_output", .int 10000)])]

/-- `examples/inverse_problems_2d/const_inverse_poisson2d/input_inverse.yaml`. -/
noncomputable def yamlInverse : Yaml :=
  .dict
    [("experimentation", .dict
      [("output_path", .str "output/inv_test")]),
     ("geometry", .dict
      [("mesh_generation_method", .str "internal"),
       ("internal_mesh_params", .dict
        [("x_min", .int (-1)), ("x_max", .int 1), ("y_min", .int (-1)), ("y_max", .int 1),
         ("n_cells_x", .int 2), ("n_cells_y", .int 2), ("n_boundary_points", .int 2000),
         ("n_test_points_x", .int 100), ("n_test_points_y", .int 100)]),
       ("mesh_type", .str "quadrilateral"),
       ("external_mesh_params", .dict
        [("mesh_file_name", .str "meshes/rect_quad.mesh"), ("boundary_refinement_level", .int 8),
         ("boundary_sampling_method", .str "uniform")])]),
     ("fe", .dict
      [("fe_order", .int 10), ("fe_type", .str "jacobi"), ("quad_order", .int 40),
       ("quad_type", .str "gauss-jacobi")]),
     ("pde", .dict
      [("beta", .int 10)]),
     ("model", .dict
      [("model_architecture", .list [.int 2, .int 30, .int 30, .int 30, .int 1]),
       ("activation", .str "tanh"),
       ("use_attention", .bool false),
       ("epochs", .int 10000),
       ("dtype", .str "float32"),
       ("set_memory_growth", .bool false),
       ("learning_rate", .dict
        [("initial_learning_rate", .float 0.001), ("use_lr_scheduler", .bool false),
         ("decay_steps", .int 1000), ("decay_rate", .float 0.9), ("staircase", .bool false)])]),
     ("inverse", .dict
      [("num_sensor_points", .int 50)]),
     ("logging", .dict
      [("update_console_output", .int 5000)])]

/-- `examples/inverse_problems_2d/domain_inverse_cd2d/USA/input_inverse_domain.yaml`. -/
noncomputable def yamlDomainUsa : Yaml :=
  .dict
    [("experimentation", .dict
      [("output_path", .str "output/usa_2")]),
     ("geometry", .dict
      [("mesh_generation_method", .str "external"),
       ("internal_mesh_params", .dict
        [("x_min", .int 0), ("x_max", .int 1), ("y_min", .int 0), ("y_max", .int 1),
         ("n_cells_x", .int 20), ("n_cells_y", .int 20), ("n_boundary_points", .int 1500),
         ("n_test_points_x", .int 100), ("n_test_points_y", .int 100)]),
       ("mesh_type", .str "quadrilateral"),
       ("external_mesh_params", .dict
        [("mesh_file_name", .str "usa.mesh"), ("boundary_refinement_level", .int 2),
         ("boundary_sampling_method", .str "uniform")])]),
     ("fe", .dict
      [("fe_order", .int 4), ("fe_type", .str "jacobi"), ("quad_order", .int 5),
       ("quad_type", .str "gauss-jacobi")]),
     ("pde", .dict
      [("beta", .int 10)]),
     ("model", .dict
      [("model_architecture", .list [.int 2, .int 30, .int 30, .int 30, .int 2]),
       ("activation", .str "tanh"),
       ("use_attention", .bool false),
       ("epochs", .int 20000),
       ("dtype", .str "float32"),
       ("set_memory_growth", .bool true),
       ("learning_rate", .dict
        [("initial_learning_rate", .float 0.002), ("use_lr_scheduler", .bool true),
         ("decay_steps", .int 1000), ("decay_rate", .float 0.99), ("staircase", .bool true)])]),
     ("logging", .dict
      [("update_progress_bar", .int 100), ("update_console_output", .int 5000),
       ("update_solution_images", .int 5000)]),
     ("inverse", .dict
      [("num_sensor_points", .int 500)])]

/-- `examples/inverse_problems_2d/domain_inverse_cd2d/circle/input_inverse_domain.yaml`. -/
noncomputable def yamlDomainCircle : Yaml :=
  .dict
    [("experimentation", .dict
      [("output_path", .str "output/inverse/circle_1")]),
     ("geometry", .dict
      [("mesh_generation_method", .str "external"),
       ("internal_mesh_params", .dict
        [("x_min", .int 0), ("x_max", .int 1), ("y_min", .int 0), ("y_max", .int 1),
         ("n_cells_x", .int 20), ("n_cells_y", .int 20), ("n_boundary_points", .int 1500),
         ("n_test_points_x", .int 100), ("n_test_points_y", .int 100)]),
       ("mesh_type", .str "quadrilateral"),
       ("external_mesh_params", .dict
        [("mesh_file_name", .str "circle_quad.mesh"), ("boundary_refinement_level", .int 2),
         ("boundary_sampling_method", .str "uniform")])]),
     ("fe", .dict
      [("fe_order", .int 3), ("fe_type", .str "jacobi"), ("quad_order", .int 5),
       ("quad_type", .str "gauss-jacobi")]),
     ("pde", .dict
      [("beta", .int 10)]),
     ("model", .dict
      [("model_architecture", .list [.int 2, .int 30, .int 30, .int 30, .int 2]),
       ("activation", .str "tanh"),
       ("use_attention", .bool false),
       ("epochs", .int 50000),
       ("dtype", .str "float32"),
       ("set_memory_growth", .bool true),
       ("learning_rate", .dict
        [("initial_learning_rate", .float 0.003), ("use_lr_scheduler", .bool false),
         ("decay_steps", .int 1000), ("decay_rate", .float 0.98), ("staircase", .bool true)])]),
     ("logging", .dict
      [("update_progress_bar", .int 100), ("update_console_output", .int 5000),
       ("update_solution_images", .int 5000)]),
     ("inverse", .dict
      [("num_sensor_points", .int 500), ("sensor_data_file", .str "fem_output_circle2.csv")])]

end FastVPINNs
