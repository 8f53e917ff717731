{
 "claims": [
  {
   "property": "C01",
   "status": "proved",
   "theorems": [
    "FastVPINNs.C01_constructor"
   ],
   "note": ""
  },
  {
   "property": "C02",
   "status": "proved",
   "theorems": [
    "FastVPINNs.C02_internal_cells"
   ],
   "note": ""
  },
  {
   "property": "C03",
   "status": "proved",
   "theorems": [
    "FastVPINNs.C03_tiling"
   ],
   "note": ""
  },
  {
   "property": "C04",
   "status": "proved",
   "theorems": [
    "FastVPINNs.C04_internal_boundary",
    "FastVPINNs.C04_positions"
   ],
   "note": "The random sampler is a parameter with values in the unit square."
  },
  {
   "property": "C05",
   "status": "proved",
   "theorems": [
    "FastVPINNs.C05_test_points",
    "FastVPINNs.C05_external_points"
   ],
   "note": ""
  },
  {
   "property": "C06",
   "status": "proved",
   "theorems": [
    "FastVPINNs.C06_anticlockwise"
   ],
   "note": "arctan2 is modelled through the complex argument; floats are reals."
  },
  {
   "property": "C07",
   "status": "proved",
   "theorems": [
    "FastVPINNs.C07_uniform"
   ],
   "note": ""
  },
  {
   "property": "C08",
   "status": "proved",
   "theorems": [
    "FastVPINNs.C08_grouping"
   ],
   "note": ""
  },
  {
   "property": "C09",
   "status": "proved",
   "theorems": [
    "FastVPINNs.C09_lhs_bounding_box",
    "FastVPINNs.C09_lhs_off_edge"
   ],
   "note": "C09_lhs_off_edge shows that samples on a slanted edge can miss the edge."
  },
  {
   "property": "C10",
   "status": "proved",
   "theorems": [
    "FastVPINNs.C10_extension",
    "FastVPINNs.C10_sampling_method"
   ],
   "note": ""
  },
  {
   "property": "C11",
   "status": "proved",
   "theorems": [
    "FastVPINNs.C11_write_vtk"
   ],
   "note": ""
  },
  {
   "property": "C12",
   "status": "proved",
   "theorems": [
    "FastVPINNs.C12_basis_accepted",
    "FastVPINNs.C12_fe_order_limit_is_1000",
    "FastVPINNs.C12_quadrature_accepted",
    "FastVPINNs.C12_transformation_accepted"
   ],
   "note": "C12_fe_order_limit_is_1000 records that the error message names a wrong limit."
  },
  {
   "property": "C13",
   "status": "proved",
   "theorems": [
    "FastVPINNs.C13_basis_rows"
   ],
   "note": ""
  },
  {
   "property": "C14",
   "status": "proved",
   "theorems": [
    "FastVPINNs.C14_vanish_on_boundary"
   ],
   "note": ""
  },
  {
   "property": "C15",
   "status": "proved",
   "theorems": [
    "FastVPINNs.C15_legendre_derivatives"
   ],
   "note": ""
  },
  {
   "property": "C16",
   "status": "proved",
   "theorems": [
    "FastVPINNs.C16_chebyshev_derivatives"
   ],
   "note": ""
  },
  {
   "property": "C17",
   "status": "proved",
   "theorems": [
    "FastVPINNs.C17_jacobi_plain_derivatives"
   ],
   "note": ""
  },
  {
   "property": "C18",
   "status": "proved",
   "theorems": [
    "FastVPINNs.C18_same_test_space"
   ],
   "note": ""
  },
  {
   "property": "C19",
   "status": "proved",
   "theorems": [
    "FastVPINNs.C19_chebyshev_values"
   ],
   "note": ""
  },
  {
   "property": "C20",
   "status": "proved",
   "theorems": [
    "FastVPINNs.C20_independent_and_spanning"
   ],
   "note": ""
  },
  {
   "property": "C21",
   "status": "proved",
   "theorems": [
    "FastVPINNs.C21_jacobi_plain_not_vanishing",
    "FastVPINNs.C21_jacobi_plain_sides"
   ],
   "note": ""
  },
  {
   "property": "C22",
   "status": "proved",
   "theorems": [
    "FastVPINNs.C22_tensor_order"
   ],
   "note": ""
  },
  {
   "property": "C23",
   "status": "proved",
   "theorems": [
    "FastVPINNs.C23_exact_2d",
    "FastVPINNs.C23_gauss_legendre_exact"
   ],
   "note": ""
  },
  {
   "property": "C24",
   "status": "proved",
   "theorems": [
    "FastVPINNs.C24_gauss_lobatto"
   ],
   "note": "The nodes returned by roots_jacobi are assumed to be the roots of the Jacobi polynomial (RootsJacobiOK)."
  },
  {
   "property": "C25",
   "status": "proved",
   "theorems": [
    "FastVPINNs.C25_square_onto_cell"
   ],
   "note": ""
  },
  {
   "property": "C26",
   "status": "proved",
   "theorems": [
    "FastVPINNs.C26_jacobian_is_abs_det"
   ],
   "note": ""
  },
  {
   "property": "C27",
   "status": "proved",
   "theorems": [
    "FastVPINNs.C27_gradient_chain_rule"
   ],
   "note": ""
  },
  {
   "property": "C28",
   "status": "proved",
   "theorems": [
    "FastVPINNs.C28_affine_second_derivatives",
    "FastVPINNs.C28_affine_degenerate",
    "FastVPINNs.C28_bilinear_second_derivatives_wrong"
   ],
   "note": "For the bilinear transformation the claim is proved false (C28_bilinear_second_derivatives_wrong)."
  },
  {
   "property": "C29",
   "status": "proved",
   "theorems": [
    "FastVPINNs.C29_affine_vs_bilinear"
   ],
   "note": ""
  },
  {
   "property": "C30",
   "status": "proved",
   "theorems": [
    "FastVPINNs.C30_no_folding"
   ],
   "note": ""
  },
  {
   "property": "C31",
   "status": "proved",
   "theorems": [
    "FastVPINNs.C31_weights",
    "FastVPINNs.C31_internal"
   ],
   "note": ""
  },
  {
   "property": "C32",
   "status": "proved",
   "theorems": [
    "FastVPINNs.C32_points",
    "FastVPINNs.C32_internal"
   ],
   "note": ""
  },
  {
   "property": "C33",
   "status": "proved",
   "theorems": [
    "FastVPINNs.C33_test_functions"
   ],
   "note": ""
  },
  {
   "property": "C34",
   "status": "proved",
   "theorems": [
    "FastVPINNs.C34_accessors"
   ],
   "note": ""
  },
  {
   "property": "C35",
   "status": "proved",
   "theorems": [
    "FastVPINNs.C35_copies"
   ],
   "note": "Arrays live on a small heap; copy() allocates a new cell."
  },
  {
   "property": "C36",
   "status": "proved",
   "theorems": [
    "FastVPINNs.C36_total_dofs"
   ],
   "note": ""
  },
  {
   "property": "C37",
   "status": "proved",
   "theorems": [
    "FastVPINNs.C37_dirichlet_data",
    "FastVPINNs.C37_dirichlet_vector"
   ],
   "note": ""
  },
  {
   "property": "C38",
   "status": "proved",
   "theorems": [
    "FastVPINNs.C38_plot"
   ],
   "note": ""
  },
  {
   "property": "C39",
   "status": "proved",
   "theorems": [
    "FastVPINNs.C39_forcing",
    "FastVPINNs.C39_linear",
    "FastVPINNs.C39_vector"
   ],
   "note": ""
  },
  {
   "property": "C40",
   "status": "proved",
   "theorems": [
    "FastVPINNs.C40_internal",
    "FastVPINNs.C40_external",
    "FastVPINNs.C40_first_line_unused",
    "FastVPINNs.C40_other"
   ],
   "note": "int(0.9*n) is taken as the exact floor."
  },
  {
   "property": "C41",
   "status": "proved",
   "theorems": [
    "FastVPINNs.C41_layout"
   ],
   "note": ""
  },
  {
   "property": "C42",
   "status": "proved",
   "theorems": [
    "FastVPINNs.C42_weak_form",
    "FastVPINNs.C42_train_step",
    "FastVPINNs.C42_train_step_inverse"
   ],
   "note": ""
  },
  {
   "property": "C43",
   "status": "proved",
   "theorems": [
    "FastVPINNs.C43_nonneg_zero",
    "FastVPINNs.C43_returns"
   ],
   "note": ""
  },
  {
   "property": "C44",
   "status": "proved",
   "theorems": [
    "FastVPINNs.C44_cd2d_poisson",
    "FastVPINNs.C44_helmholtz_cd2d",
    "FastVPINNs.C44_poisson_inverse",
    "FastVPINNs.C44_cd2d_inverse",
    "FastVPINNs.C44_cd2d_inverse_domain"
   ],
   "note": ""
  },
  {
   "property": "C45",
   "status": "proved",
   "theorems": [
    "FastVPINNs.C45_local",
    "FastVPINNs.C45_total"
   ],
   "note": ""
  },
  {
   "property": "C46",
   "status": "proved",
   "theorems": [
    "FastVPINNs.C46_divergence",
    "FastVPINNs.C46_residuals",
    "FastVPINNs.C46_exact_solution",
    "FastVPINNs.C46_inverse",
    "FastVPINNs.C46_internal_mesh"
   ],
   "note": ""
  },
  {
   "property": "C47",
   "status": "proved",
   "theorems": [
    "FastVPINNs.C47_dense",
    "FastVPINNs.C47_hard",
    "FastVPINNs.C47_inverse",
    "FastVPINNs.C47_inverse_domain",
    "FastVPINNs.C47_shapes"
   ],
   "note": ""
  },
  {
   "property": "C48",
   "status": "proved",
   "theorems": [
    "FastVPINNs.C48_hard",
    "FastVPINNs.C48_output",
    "FastVPINNs.C48_unconstrained",
    "FastVPINNs.C48_network",
    "FastVPINNs.C48_dirichlet",
    "FastVPINNs.C48_example",
    "FastVPINNs.C48_example_interior"
   ],
   "note": ""
  },
  {
   "property": "C49",
   "status": "proved",
   "theorems": [
    "FastVPINNs.C49_forward",
    "FastVPINNs.C49_inverse",
    "FastVPINNs.C49_inverse_domain",
    "FastVPINNs.C49_own_keywords",
    "FastVPINNs.C49_keyword_order",
    "FastVPINNs.C49_cd2d_inverse_unusable"
   ],
   "note": ""
  },
  {
   "property": "C50",
   "status": "proved",
   "theorems": [
    "FastVPINNs.C50_keys",
    "FastVPINNs.C50_keys_staircase",
    "FastVPINNs.C50_staircase_ignored",
    "FastVPINNs.C50_rate",
    "FastVPINNs.C50_non_increasing"
   ],
   "note": ""
  },
  {
   "property": "C51",
   "status": "proved",
   "theorems": [
    "FastVPINNs.C51_layers",
    "FastVPINNs.C51_short",
    "FastVPINNs.C51_build",
    "FastVPINNs.C51_call",
    "FastVPINNs.C51_wrong_width",
    "FastVPINNs.C51_network"
   ],
   "note": ""
  },
  {
   "property": "C52",
   "status": "proved",
   "theorems": [
    "FastVPINNs.C52_dense",
    "FastVPINNs.C52_hard",
    "FastVPINNs.C52_hard_lost",
    "FastVPINNs.C52_inverse",
    "FastVPINNs.C52_inverse_domain",
    "FastVPINNs.C52_base_entries"
   ],
   "note": ""
  },
  {
   "property": "C53",
   "status": "proved",
   "theorems": [
    "FastVPINNs.C53_l1",
    "FastVPINNs.C53_linf",
    "FastVPINNs.C53_l2",
    "FastVPINNs.C53_formulas"
   ],
   "note": ""
  },
  {
   "property": "C54",
   "status": "proved",
   "theorems": [
    "FastVPINNs.C54_ordering"
   ],
   "note": ""
  },
  {
   "property": "C55",
   "status": "proved",
   "theorems": [
    "FastVPINNs.C55_scaling_absolute",
    "FastVPINNs.C55_formulas",
    "FastVPINNs.C55_scaling_relative",
    "FastVPINNs.C55_permutation",
    "FastVPINNs.C55_zero_approximation"
   ],
   "note": ""
  },
  {
   "property": "C56",
   "status": "proved",
   "theorems": [
    "FastVPINNs.C56_combined",
    "FastVPINNs.C56_size_mismatch"
   ],
   "note": ""
  },
  {
   "property": "C57",
   "status": "proved",
   "theorems": [
    "FastVPINNs.C57_rows"
   ],
   "note": ""
  },
  {
   "property": "C58",
   "status": "partial",
   "theorems": [
    "FastVPINNs.C58_gpu",
    "FastVPINNs.C58_trial",
    "FastVPINNs.C58_jobs_partial",
    "FastVPINNs.C58_jobs_default",
    "FastVPINNs.C58_jobs_exact"
   ],
   "note": "The bound on the number of parallel trials holds exactly if n_jobs is not -1 or there are no more CPUs than GPUs (C58_jobs_exact); for the default n_jobs = -1 it is false in general (C58_jobs_default)."
  },
  {
   "property": "C59",
   "status": "proved",
   "theorems": [
    "FastVPINNs.C59_objective"
   ],
   "note": "Stated for the whole objective: every point of the search space yields a value, which is the relative l2 error of the trained network on the test grid."
  },
  {
   "property": "C60",
   "status": "proved",
   "theorems": [
    "FastVPINNs.C60_uniform_poisson",
    "FastVPINNs.C60_complex_poisson",
    "FastVPINNs.C60_helmholtz",
    "FastVPINNs.C60_convection_diffusion",
    "FastVPINNs.C60_const_inverse",
    "FastVPINNs.C60_domain_inverse",
    "FastVPINNs.C60_uniform_boundary",
    "FastVPINNs.C60_boundary"
   ],
   "note": ""
  },
  {
   "property": "C61",
   "status": "proved",
   "theorems": [
    "FastVPINNs.C61_contour_grid"
   ],
   "note": ""
  },
  {
   "property": "C62",
   "status": "partial",
   "theorems": [
    "FastVPINNs.C62_line_references_partial",
    "FastVPINNs.C62_first_block_wrong"
   ],
   "note": "Proved when the edge block comes first in the file; C62_first_block_wrong shows that the claim fails otherwise."
  },
  {
   "property": "C63",
   "status": "proved",
   "theorems": [
    "FastVPINNs.C63_constructor"
   ],
   "note": ""
  },
  {
   "property": "C64",
   "status": "proved",
   "theorems": [
    "FastVPINNs.C64_wiring",
    "FastVPINNs.C64_accepts",
    "FastVPINNs.C64_dtype",
    "FastVPINNs.C64_parts",
    "FastVPINNs.C64_accepts_hard",
    "FastVPINNs.C64_accepts_inverse",
    "FastVPINNs.C64_accepts_inverse_domain",
    "FastVPINNs.C64_dtype_others"
   ],
   "note": ""
  },
  {
   "property": "C65",
   "status": "partial",
   "theorems": [
    "FastVPINNs.C65_distinct_partial",
    "FastVPINNs.C65_shared_gpu",
    "FastVPINNs.C65_exact"
   ],
   "note": "Proved for one worker, for no more trials than GPUs, and while the running trial numbers are closer than the number of GPUs; C65_exact gives exactly the cases in which no two running trials can share a GPU; false in general (C65_shared_gpu)."
  },
  {
   "property": "C66",
   "status": "proved",
   "theorems": [
    "FastVPINNs.C66_external_points",
    "FastVPINNs.C66_external_write",
    "FastVPINNs.C66_internal_points",
    "FastVPINNs.C66_internal_read",
    "FastVPINNs.C66_new",
    "FastVPINNs.C66_internal_files",
    "FastVPINNs.C66_attributes",
    "FastVPINNs.C66_vtk_failed",
    "FastVPINNs.C66_optimized_write"
   ],
   "note": "File formats and gmsh are parameters; reading back a VTK file written for the mesh in question is assumed to preserve its plane points."
  },
  {
   "property": "C67",
   "status": "partial",
   "theorems": [
    "FastVPINNs.C67_stored_points_partial",
    "FastVPINNs.C67_connectivity_wrong"
   ],
   "note": "The code violates the connectivity half: line 290 stores coordinates as vertex numbers (C67_connectivity_wrong, for every mesh with at least one cell). The points half is proved."
  },
  {
   "property": "C68",
   "status": "proved",
   "theorems": [
    "FastVPINNs.C68_polynomials",
    "FastVPINNs.C68_mesh",
    "FastVPINNs.C68_internal",
    "FastVPINNs.C68_forcing"
   ],
   "note": "Integrals are Mathlib's Lebesgue integrals over the convex hull of the vertices; exactness of the one-dimensional rules is the assumption on numpy/scipy stated in DESIGN.md."
  },
  {
   "property": "C69",
   "status": "proved",
   "theorems": [
    "FastVPINNs.C69_quadrature",
    "FastVPINNs.C69_train_step",
    "FastVPINNs.C69_inverse",
    "FastVPINNs.C69_inverse_domain",
    "FastVPINNs.C69_degree"
   ],
   "note": "The constructor caps the quadrature order at 9999, so the bound is explicit instead of a limit."
  },
  {
   "property": "C70",
   "status": "proved",
   "theorems": [
    "FastVPINNs.C70_weak_form",
    "FastVPINNs.C70_smooth_solution",
    "FastVPINNs.C70_inverse",
    "FastVPINNs.C70_inverse_domain"
   ],
   "note": "For all spaces whose test functions vanish on the edges (all but jacobi_plain)."
  },
  {
   "property": "C71",
   "status": "proved",
   "theorems": [
    "FastVPINNs.C71_uniform_poisson",
    "FastVPINNs.C71_forward",
    "FastVPINNs.C71_inverse"
   ],
   "note": "Explicit bound for the uniform-mesh Poisson example; for the other examples the bound is in terms of the polynomial approximation distance."
  },
  {
   "property": "C72",
   "status": "proved",
   "theorems": [
    "FastVPINNs.C72_dense",
    "FastVPINNs.C72_hard",
    "FastVPINNs.C72_inverse",
    "FastVPINNs.C72_inverse_domain",
    "FastVPINNs.C72_exact_solution"
   ],
   "note": "keras' Adam is given by its documented update formula (trusted base)."
  },
  {
   "property": "C73",
   "status": "proved",
   "theorems": [
    "FastVPINNs.C73_dense",
    "FastVPINNs.C73_hard",
    "FastVPINNs.C73_inverse",
    "FastVPINNs.C73_inverse_domain",
    "FastVPINNs.C73_update"
   ],
   "note": "Exact derivatives over the reals; automatic differentiation itself is external and assumed to return them. Attention excluded."
  },
  {
   "property": "C74",
   "status": "proved",
   "theorems": [
    "FastVPINNs.C74_step",
    "FastVPINNs.C74_total",
    "FastVPINNs.C74_scheduler",
    "FastVPINNs.C74_converges",
    "FastVPINNs.C74_inverse"
   ],
   "note": "The constant 7.3 comes from Adam's default beta_1 = 0.9, beta_2 = 0.999."
  },
  {
   "property": "C75",
   "status": "proved",
   "theorems": [
    "FastVPINNs.C75_attributes",
    "FastVPINNs.C75_affine_second",
    "FastVPINNs.C75_bilinear_second"
   ],
   "note": "Second derivatives of bilinear cells are shown to be the reference ones."
  },
  {
   "property": "C76",
   "status": "proved",
   "theorems": [
    "FastVPINNs.C76_uniform",
    "FastVPINNs.C76_hard",
    "FastVPINNs.C76_losses",
    "FastVPINNs.C76_hard_losses",
    "FastVPINNs.C76_uniform_completes",
    "FastVPINNs.C76_hard_completes",
    "FastVPINNs.C76_external",
    "FastVPINNs.C76_external_completes",
    "FastVPINNs.C76_method",
    "FastVPINNs.C76_shipped_uniform",
    "FastVPINNs.C76_shipped_external",
    "FastVPINNs.C76_architecture_ignored",
    "FastVPINNs.C76_architecture_matters"
   ],
   "note": "Scripts without attention layer, with the documented mesh generation method."
  },
  {
   "property": "C77",
   "status": "proved",
   "theorems": [
    "FastVPINNs.C77_attention",
    "FastVPINNs.C77_network",
    "FastVPINNs.C77_equivariant",
    "FastVPINNs.C77_pointwise_iff",
    "FastVPINNs.C77_gradient_wrong"
   ],
   "note": "Keras' dot-product attention; the last two theorems show what it destroys: values depend on the batch (exactly unless the plain network is constant) and the summed row gradient is not the derivative at the point."
  },
  {
   "property": "C78",
   "status": "proved",
   "theorems": [
    "FastVPINNs.C78_inverse",
    "FastVPINNs.C78_losses",
    "FastVPINNs.C78_completes",
    "FastVPINNs.C78_external",
    "FastVPINNs.C78_total_time",
    "FastVPINNs.C78_rate",
    "FastVPINNs.C78_scheduler",
    "FastVPINNs.C78_shipped"
   ],
   "note": "Record, losses, completion and the shipped configuration of main_inverse.py; the findings are C78_external, C78_scheduler, C78_total_time, C78_rate and the second half of C78_completes."
  },
  {
   "property": "C79",
   "status": "proved",
   "theorems": [
    "FastVPINNs.C79_usa",
    "FastVPINNs.C79_circle",
    "FastVPINNs.C79_losses",
    "FastVPINNs.C79_completes_usa",
    "FastVPINNs.C79_completes_circle",
    "FastVPINNs.C79_scheduler",
    "FastVPINNs.C79_time_table",
    "FastVPINNs.C79_shipped",
    "FastVPINNs.C79_method",
    "FastVPINNs.C79_short_architecture"
   ],
   "note": "Record, losses, completion and the shipped configurations of the two scripts on mesh files, without attention layer; the findings are C79_scheduler and C79_time_table. Internal meshes are C98."
  },
  {
   "property": "C80",
   "status": "proved",
   "theorems": [
    "FastVPINNs.C80_internal",
    "FastVPINNs.C80_length",
    "FastVPINNs.C80_file",
    "FastVPINNs.C80_coordinates_ignored",
    "FastVPINNs.C80_completes",
    "FastVPINNs.C80_shipped",
    "FastVPINNs.C80_method"
   ],
   "note": "Without attention layer and with an external mesh, as in C76; the finding is C80_coordinates_ignored."
  },
  {
   "property": "C81",
   "status": "proved",
   "theorems": [
    "FastVPINNs.C81_uniform",
    "FastVPINNs.C81_hard",
    "FastVPINNs.C81_external",
    "FastVPINNs.C81_gear",
    "FastVPINNs.C81_inverse",
    "FastVPINNs.C81_usa",
    "FastVPINNs.C81_circle",
    "FastVPINNs.C81_command_line",
    "FastVPINNs.C81_missing",
    "FastVPINNs.C81_key_error",
    "FastVPINNs.C81_dtype",
    "FastVPINNs.C81_unique",
    "FastVPINNs.C81_other_entries",
    "FastVPINNs.C81_shipped_rectangle",
    "FastVPINNs.C81_shipped_mesh",
    "FastVPINNs.C81_ignored"
   ],
   "note": "Entries of an unexpected type are outside the model (the script of the model stops as unexpectedType); the two findings on ignored entries are C81_ignored."
  },
  {
   "property": "C82",
   "status": "proved",
   "theorems": [
    "FastVPINNs.C82_value",
    "FastVPINNs.C82_script",
    "FastVPINNs.C82_script_completes",
    "FastVPINNs.C82_best",
    "FastVPINNs.C82_first_run",
    "FastVPINNs.C82_terminates",
    "FastVPINNs.C82_returns",
    "FastVPINNs.C82_no_gpu",
    "FastVPINNs.C82_earlier_run",
    "FastVPINNs.C82_config",
    "FastVPINNs.C82_optimized"
   ],
   "note": "Points suggested by Optuna are arbitrary points of the search space; values of trials are real numbers (no NaN)."
  },
  {
   "property": "C83",
   "status": "proved",
   "theorems": [
    "FastVPINNs.C83_usa",
    "FastVPINNs.C83_circle",
    "FastVPINNs.C83_usa_external",
    "FastVPINNs.C83_circle_external",
    "FastVPINNs.C83_uniform",
    "FastVPINNs.C83_hard",
    "FastVPINNs.C83_inverse",
    "FastVPINNs.C83_curves",
    "FastVPINNs.C83_multiple",
    "FastVPINNs.C83_time",
    "FastVPINNs.C83_contour",
    "FastVPINNs.C83_inverse_param",
    "FastVPINNs.C83_mesh",
    "FastVPINNs.C83_open_figures",
    "FastVPINNs.C83_sensors",
    "FastVPINNs.C83_residuals"
   ],
   "note": "Images are what is drawn, with labels, titles and scales; sizes, fonts and colours of lines are not modelled. At the level of scripts: the forward scripts on the rectangle main_inverse.py and the two scripts for a coefficient field (internal mesh and mesh file)."
  },
  {
   "property": "C84",
   "status": "proved",
   "theorems": [
    "FastVPINNs.C84_pairing",
    "FastVPINNs.C84_bound",
    "FastVPINNs.C84_detected",
    "FastVPINNs.C84_zero_loss",
    "FastVPINNs.C84_train_step",
    "FastVPINNs.C84_inverse",
    "FastVPINNs.C84_inverse_domain",
    "FastVPINNs.C84_loss_positive",
    "FastVPINNs.C84_polynomial_iff",
    "FastVPINNs.C84_polynomial_inverse",
    "FastVPINNs.C84_polynomial_domain"
   ],
   "note": "For all spaces whose test functions vanish on the edges (all but jacobi_plain)."
  },
  {
   "property": "C85",
   "status": "proved",
   "theorems": [
    "FastVPINNs.C85_dense",
    "FastVPINNs.C85_hard",
    "FastVPINNs.C85_inverse",
    "FastVPINNs.C85_inverse_domain",
    "FastVPINNs.C85_returns",
    "FastVPINNs.C85_returns_domain",
    "FastVPINNs.C85_order",
    "FastVPINNs.C85_factor",
    "FastVPINNs.C85_nearest",
    "FastVPINNs.C85_defect"
   ],
   "note": "Model of arithmetic: every operation has a relative error of at most eps; no overflow, underflow or NaN. Values of the network and its derivatives are given up to j roundings."
  },
  {
   "property": "C86",
   "status": "proved",
   "theorems": [
    "FastVPINNs.C86_errors",
    "FastVPINNs.C86_relative",
    "FastVPINNs.C86_returns",
    "FastVPINNs.C86_zero",
    "FastVPINNs.C86_data_losses",
    "FastVPINNs.C86_data_losses_domain"
   ],
   "note": "Same model of arithmetic as C85, with correctly rounded division and square root; the arrays are the given floating-point numbers."
  },
  {
   "property": "C87",
   "status": "proved",
   "theorems": [
    "FastVPINNs.C87_dense",
    "FastVPINNs.C87_hard",
    "FastVPINNs.C87_inverse",
    "FastVPINNs.C87_inverse_domain",
    "FastVPINNs.C87_training"
   ],
   "note": "Exact arithmetic; the order of summation is irrelevant there (rounding: C85). Networks that work point by point (no attention)."
  },
  {
   "property": "C88",
   "status": "proved",
   "theorems": [
    "FastVPINNs.C88_dense",
    "FastVPINNs.C88_hard",
    "FastVPINNs.C88_inverse",
    "FastVPINNs.C88_inverse_domain"
   ],
   "note": "Exact arithmetic; the network in the new coordinates is a given function, not the result of another training."
  },
  {
   "property": "C89",
   "status": "proved",
   "theorems": [
    "FastVPINNs.C89_variables",
    "FastVPINNs.C89_no_hidden_state",
    "FastVPINNs.C89_each_used"
   ],
   "note": "\"Each is used\" is for the network without attention and for injective activations."
  },
  {
   "property": "C90",
   "status": "proved",
   "theorems": [
    "FastVPINNs.C90_stability",
    "FastVPINNs.C90_train_step",
    "FastVPINNs.C90_inverse"
   ],
   "note": "For all spaces whose test functions vanish on the edges (all but jacobi_plain) and for constant coefficients; DenseModel_Inverse_Domain (a coefficient field) is not covered."
  },
  {
   "property": "C91",
   "status": "proved",
   "theorems": [
    "FastVPINNs.C91_interpolation",
    "FastVPINNs.C91_dense",
    "FastVPINNs.C91_hard",
    "FastVPINNs.C91_inverse",
    "FastVPINNs.C91_inverse_domain",
    "FastVPINNs.C91_zero_loss",
    "FastVPINNs.C91_small_loss",
    "FastVPINNs.C91_no_error_bound"
   ],
   "note": "The activation is tanh. The constraint of DenseModel_Hard has the form B + l u with l not zero at the points. C91_zero_loss, C91_small_loss and C91_no_error_bound are for DenseModel."
  },
  {
   "property": "C92",
   "status": "proved",
   "theorems": [
    "FastVPINNs.C92_version",
    "FastVPINNs.C92_cuda",
    "FastVPINNs.C92_cudnn",
    "FastVPINNs.C92_driver",
    "FastVPINNs.C92_completes",
    "FastVPINNs.C92_failures",
    "FastVPINNs.C92_gpu",
    "FastVPINNs.C92_report",
    "FastVPINNs.C92_false_pass",
    "FastVPINNs.C92_get_errors"
   ],
   "note": "Findings: C92_gpu/C92_false_pass (an error message of nvidia-smi counts as a driver), C92_failures (missing converter or python3, output of nvcc without a release: uncaught exceptions), C92_get_errors (NameError on every call). Digits of \\d are 0-9 and blanks those of Char.isWhitespace."
  },
  {
   "property": "C93",
   "status": "proved",
   "theorems": [
    "FastVPINNs.C93_dense",
    "FastVPINNs.C93_hard",
    "FastVPINNs.C93_inverse",
    "FastVPINNs.C93_dense_nan",
    "FastVPINNs.C93_hard_nan",
    "FastVPINNs.C93_inverse_nan",
    "FastVPINNs.C93_exists",
    "FastVPINNs.C93_dense_finite",
    "FastVPINNs.C93_hard_finite",
    "FastVPINNs.C93_inverse_finite",
    "FastVPINNs.C93_dense_accurate",
    "FastVPINNs.C93_hard_accurate",
    "FastVPINNs.C93_inverse_accurate",
    "FastVPINNs.C93_inverse_domain_accurate",
    "FastVPINNs.C93_errors_nan",
    "FastVPINNs.C93_zero_solution",
    "FastVPINNs.C93_errors_accurate",
    "FastVPINNs.C93_relative_overflow",
    "FastVPINNs.C93_errors_finite",
    "FastVPINNs.C93_errors_exist"
   ],
   "note": "IEEE special values with rounding and an overflow threshold as a parameter; underflow and the sign of zero are not modelled. Finding: a relative L2 or L1 error can be reported as zero when the norm of the exact solution overflows; relative errors of the zero solution are NaN or infinite."
  },
  {
   "property": "C94",
   "status": "proved",
   "theorems": [
    "FastVPINNs.C94_text",
    "FastVPINNs.C94_first_step",
    "FastVPINNs.C94_epochs",
    "FastVPINNs.C94_graphs",
    "FastVPINNs.C94_signatures",
    "FastVPINNs.C94_assignment_lost",
    "FastVPINNs.C94_models"
   ],
   "note": "Graphs are modelled as the attributes seen at the first call with a signature; tf.function itself (tracing, caching, reading of variables) is assumed to behave as documented. Finding: attributes assigned after the first step are ignored; every new Python number for beta builds a new graph."
  },
  {
   "property": "C95",
   "status": "proved",
   "theorems": [
    "FastVPINNs.C95_continuous",
    "FastVPINNs.C95_one_sign",
    "FastVPINNs.C95_identified",
    "FastVPINNs.C95_zero_loss",
    "FastVPINNs.C95_scaling",
    "FastVPINNs.C95_no_forcing"
   ],
   "note": "Classical solutions, comparison principle proved in Lean; the constant of the discretisation is that of C90 (it depends on cells and test space and is not computed). Limits: without forcing, or with zero boundary and sensor values, the losses do not determine the parameter (C95_no_forcing, C95_scaling)."
  },
  {
   "property": "C96",
   "status": "proved",
   "theorems": [
    "FastVPINNs.C96_stability",
    "FastVPINNs.C96_field",
    "FastVPINNs.C96_invisible"
   ],
   "note": "Classical solutions; maximum principle with exponential barrier for variable coefficients proved in Lean; the constant of the discretisation depends on cells and test space and is not computed. Limit: the coefficient is not determined where the gradient vanishes (C96_invisible)."
  },
  {
   "property": "C97",
   "status": "proved",
   "theorems": [
    "FastVPINNs.C97_identified",
    "FastVPINNs.C97_error",
    "FastVPINNs.C97_inverse",
    "FastVPINNs.C97_field",
    "FastVPINNs.C97_first_order",
    "FastVPINNs.C97_internal"
   ],
   "note": "All constants explicit: the first test function of a cell has one sign and an integral of at least the area of the cell. Limit: the defect must not vary much on a cell (C91 shows that a small loss alone does not bound the error)."
  },
  {
   "property": "C98",
   "status": "proved",
   "theorems": [
    "FastVPINNs.C98_usa",
    "FastVPINNs.C98_circle",
    "FastVPINNs.C98_completes_usa",
    "FastVPINNs.C98_completes_circle",
    "FastVPINNs.C98_circle_reference"
   ],
   "note": "Record, completion and the role of the CSV file on internal meshes, without attention layer and without the plots; C98_circle and C98_circle_reference are findings. The order of the points in the matrices is C61."
  },
  {
   "property": "C99",
   "status": "proved",
   "theorems": [
    "FastVPINNs.C99_dense",
    "FastVPINNs.C99_hard",
    "FastVPINNs.C99_inverse",
    "FastVPINNs.C99_inverse_domain",
    "FastVPINNs.C99_arithmetic",
    "FastVPINNs.C99_precision",
    "FastVPINNs.C99_returns",
    "FastVPINNs.C99_returns_domain",
    "FastVPINNs.C99_vanishing"
   ],
   "note": "All four models; errors of the tensors and network values are hypotheses with one bound tau, not derived from the arithmetic."
  },
  {
   "property": "C100",
   "status": "proved",
   "theorems": [
    "FastVPINNs.C100_problem",
    "FastVPINNs.C100_sign",
    "FastVPINNs.C100_boundary",
    "FastVPINNs.C100_custom",
    "FastVPINNs.C100_run",
    "FastVPINNs.C100_completes",
    "FastVPINNs.C100_shipped"
   ],
   "note": ""
  },
  {
   "property": "C101",
   "status": "proved",
   "theorems": [
    "FastVPINNs.C101_input",
    "FastVPINNs.C101_dense",
    "FastVPINNs.C101_dense_gradient",
    "FastVPINNs.C101_hard",
    "FastVPINNs.C101_inverse",
    "FastVPINNs.C101_inverse_domain",
    "FastVPINNs.C101_training",
    "FastVPINNs.C101_tanh",
    "FastVPINNs.C101_relu",
    "FastVPINNs.C101_relu_bias",
    "FastVPINNs.C101_relu_origin",
    "FastVPINNs.C101_kink"
   ],
   "note": ""
  },
  {
   "property": "C102",
   "status": "proved",
   "theorems": [
    "FastVPINNs.C102_dense",
    "FastVPINNs.C102_hard",
    "FastVPINNs.C102_inverse",
    "FastVPINNs.C102_inverse_domain",
    "FastVPINNs.C102_recorded",
    "FastVPINNs.C102_smooth",
    "FastVPINNs.C102_relu",
    "FastVPINNs.C102_tanh",
    "FastVPINNs.C102_rounding",
    "FastVPINNs.C102_precision",
    "FastVPINNs.C102_jump"
   ],
   "note": ""
  },
  {
   "property": "C103",
   "status": "proved",
   "theorems": [
    "FastVPINNs.C103_network",
    "FastVPINNs.C103_training",
    "FastVPINNs.C103_equal_units",
    "FastVPINNs.C103_idle_unit"
   ],
   "note": ""
  },
  {
   "property": "C104",
   "status": "proved",
   "theorems": [
    "FastVPINNs.C104_inverse_problem",
    "FastVPINNs.C104_inverse_square",
    "FastVPINNs.C104_inverse_disc",
    "FastVPINNs.C104_domain",
    "FastVPINNs.C104_inverse_square_completes",
    "FastVPINNs.C104_inverse_disc_completes",
    "FastVPINNs.C104_domain_completes",
    "FastVPINNs.C104_inverse_shipped",
    "FastVPINNs.C104_domain_exact",
    "FastVPINNs.C104_problems",
    "FastVPINNs.C104_boundary",
    "FastVPINNs.C104_uniform",
    "FastVPINNs.C104_hard",
    "FastVPINNs.C104_external",
    "FastVPINNs.C104_rate",
    "FastVPINNs.C104_square_completes",
    "FastVPINNs.C104_disc_completes",
    "FastVPINNs.C104_shipped"
   ],
   "note": ""
  },
  {
   "property": "C105",
   "status": "proved",
   "theorems": [
    "FastVPINNs.C105_dense",
    "FastVPINNs.C105_inverse",
    "FastVPINNs.C105_inverse_domain",
    "FastVPINNs.C105_api",
    "FastVPINNs.C105_poisson_accepts",
    "FastVPINNs.C105_detects",
    "FastVPINNs.C105_flat_boundary"
   ],
   "note": "All four models with their usable loss functions; the update of the weights is left out (it does not change shapes). C105_flat_boundary and the second example are the silent cases."
  },
  {
   "property": "C106",
   "status": "proved",
   "theorems": [
    "FastVPINNs.C106_column",
    "FastVPINNs.C106_average",
    "FastVPINNs.C106_dense",
    "FastVPINNs.C106_hard",
    "FastVPINNs.C106_inverse",
    "FastVPINNs.C106_inverse_domain",
    "FastVPINNs.C106_inverse_joint"
   ],
   "note": "All four models; zero gradient in the entries of the output layer implies the smallest loss among all output layers on the same hidden layers. Assumes a twice continuously differentiable activation (tanh, swish, sigmoid, ...; not relu), no attention layer, beta >= 0, and for DenseModel_Hard a constraint B + l * N with twice continuously differentiable B and l. C106_column says which trainable variables these entries are."
  },
  {
   "property": "C107",
   "status": "proved",
   "theorems": [
    "FastVPINNs.C107_dense",
    "FastVPINNs.C107_hard",
    "FastVPINNs.C107_inverse",
    "FastVPINNs.C107_inverse_domain",
    "FastVPINNs.C107_scheduler"
   ],
   "note": "All four models with a constant learning rate other than zero; that the weights converge is a hypothesis. C107_scheduler is the negative part: with the schedule on, for every decay rate in [0,1) there is a problem whose training converges to weights that are not stationary. Assumes a twice continuously differentiable activation, no attention layer, exact arithmetic, and for DenseModel_Hard a constraint B + l * N."
  },
  {
   "property": "C108",
   "status": "proved",
   "theorems": [
    "FastVPINNs.C108_dense",
    "FastVPINNs.C108_inverse",
    "FastVPINNs.C108_inverse_domain",
    "FastVPINNs.C108_dense_bound",
    "FastVPINNs.C108_stationary"
   ],
   "note": "DenseModel and both inverse models; DenseModel_Hard ignores beta (C47_hard). Candidates are arbitrary sets, so that no assumption about training is made; C108_stationary connects it with zero gradients in the output layer (C106)."
  },
  {
   "property": "C109",
   "status": "proved",
   "theorems": [
    "FastVPINNs.C109_residuals",
    "FastVPINNs.C109_dense",
    "FastVPINNs.C109_hard",
    "FastVPINNs.C109_inverse",
    "FastVPINNs.C109_inverse_domain"
   ],
   "note": "All four models; no convexity of the cells needed. The factor m^2/n^2 comes from the mean over the test functions in the loss, so losses for different orders are not directly comparable."
  },
  {
   "property": "C110",
   "status": "proved",
   "theorems": [
    "FastVPINNs.C110_dense",
    "FastVPINNs.C110_hard",
    "FastVPINNs.C110_inverse",
    "FastVPINNs.C110_inverse_domain",
    "FastVPINNs.C110_best"
   ],
   "note": "All four models (DenseModel_Hard has no boundary term). C110_best derives the consequences for exact fits and best candidates from the distance of the square roots."
  },
  {
   "property": "C111",
   "status": "proved",
   "theorems": [
    "FastVPINNs.C111_dense",
    "FastVPINNs.C111_hard",
    "FastVPINNs.C111_inverse",
    "FastVPINNs.C111_inverse_domain",
    "FastVPINNs.C111_rules",
    "FastVPINNs.C111_weights_dense",
    "FastVPINNs.C111_weights_hard",
    "FastVPINNs.C111_weights_inverse",
    "FastVPINNs.C111_weights_inverse_domain",
    "FastVPINNs.C111_best"
   ],
   "note": "All four models. C111_weights_* need a twice continuously differentiable activation and no attention layer; DenseModel_Hard needs a constraint function that is twice continuously differentiable in point and value. The constructor accepts orders of the rule up to 9999 only (C63), so the statement is about all accepted rules whose degree is large enough."
  },
  {
   "property": "C112",
   "status": "proved",
   "theorems": [
    "FastVPINNs.C112_best",
    "FastVPINNs.C112_exception",
    "FastVPINNs.C112_infinite",
    "FastVPINNs.C112_diverged",
    "FastVPINNs.C112_ends",
    "FastVPINNs.C112_all_nan",
    "FastVPINNs.C112_numbers"
   ],
   "note": "Optuna is trusted to store a NaN as a failed trial and to go on, and to order infinite values like extended real numbers. The predictions of the trained networks are arbitrary; the metric computed from them is modelled with rounding, overflow and NaN (C93)."
  },
  {
   "property": "C113",
   "status": "proved",
   "theorems": [
    "FastVPINNs.C113_errors",
    "FastVPINNs.C113_relative",
    "FastVPINNs.C113_zero",
    "FastVPINNs.C113_arithmetic",
    "FastVPINNs.C113_vanishing",
    "FastVPINNs.C113_returns"
   ],
   "note": "Every operation rounds with relative error at most eps, loses at most eta and keeps the sign (zero stays zero); sums in any order. Absolute errors (C113_errors), relative errors when the norm is not lost (C113_relative), equal arrays give exactly zero (C113_zero), two concrete arithmetics are covered (C113_arithmetic), witnesses for vanishing errors and division by zero (C113_vanishing), results exist (C113_returns). The arrays themselves are given numbers."
  },
  {
   "property": "C114",
   "status": "proved",
   "theorems": [
    "FastVPINNs.C114_quadrature_uniform",
    "FastVPINNs.C114_quadrature_complex",
    "FastVPINNs.C114_quadrature_affine",
    "FastVPINNs.C114_dirichlet_internal",
    "FastVPINNs.C114_boundary_vector",
    "FastVPINNs.C114_raises",
    "FastVPINNs.C114_valid_cell_number",
    "FastVPINNs.C114_rhs_vector",
    "FastVPINNs.C114_data_shapes",
    "FastVPINNs.C114_num_points"
   ],
   "note": "Exact arithmetic: rounding in the compared sums is not modelled. Types of tensors and files are not checked."
  },
  {
   "property": "C115",
   "status": "proved",
   "theorems": [
    "FastVPINNs.C115_data",
    "FastVPINNs.C115_points",
    "FastVPINNs.C115_uniform",
    "FastVPINNs.C115_accuracy_test"
   ],
   "note": "Exact arithmetic: with rounding the two maps may differ in the last digits. The tables of second derivatives, which no accessor reports, differ and are not compared."
  },
  {
   "property": "C116",
   "status": "proved",
   "theorems": [
    "FastVPINNs.C116_weights",
    "FastVPINNs.C116_lobatto",
    "FastVPINNs.C116_mesh",
    "FastVPINNs.C116_legendre"
   ],
   "note": "Exact arithmetic. The area is the absolute value of the shoelace formula, also for cells with crossing sides. The routines for Gauss points are assumed to return what they document."
  },
  {
   "property": "C117",
   "status": "proved",
   "theorems": [
    "FastVPINNs.C117_synonyms",
    "FastVPINNs.C117_scripts",
    "FastVPINNs.C117_accuracy_tests",
    "FastVPINNs.C117_dense",
    "FastVPINNs.C117_hard",
    "FastVPINNs.C117_inverse",
    "FastVPINNs.C117_inverse_domain",
    "FastVPINNs.C117_inverse_scripts",
    "FastVPINNs.C117_inverse_tests",
    "FastVPINNs.C117_other_scripts"
   ],
   "note": "Exact arithmetic: with rounding the formulas of the three names give tables that differ in the last digits. For chebyshev_2 a single training step is compared, not a whole training. The factor is not computed."
  },
  {
   "property": "C118",
   "status": "proved",
   "theorems": [
    "FastVPINNs.C118_passes_iff",
    "FastVPINNs.C118_shipped",
    "FastVPINNs.C118_blind"
   ],
   "note": "Exact arithmetic. The import test of the same file is not modelled; the test can also fail because a library is missing or because reading the generated mesh fails."
  },
  {
   "property": "C119",
   "status": "proved",
   "theorems": [
    "FastVPINNs.C119_boundary_loss",
    "FastVPINNs.C119_certificate",
    "FastVPINNs.C119_converges",
    "FastVPINNs.C119_sides"
   ],
   "note": "Exact arithmetic. That lhs(1, n) returns one number in each of the n strata is an assumption about pyDOE. Finding: sides count alike whatever their lengths, so on a rectangle that is not a square the loss does not tend to the mean over the boundary."
  },
  {
   "property": "C120",
   "status": "proved",
   "theorems": [
    "FastVPINNs.C120_sampled",
    "FastVPINNs.C120_error",
    "FastVPINNs.C120_tolerance",
    "FastVPINNs.C120_lipschitz",
    "FastVPINNs.C120_identified",
    "FastVPINNs.C120_field"
   ],
   "note": "Exact arithmetic. That lhs(1, n) returns one number in each of the n strata is an assumption about pyDOE; the hypotheses on equation, defect and quadrature are those of C97. The explicit bounds are for DenseModel, for the parameter of DenseModel_Inverse and for the solution with the coefficient field that DenseModel_Inverse_Domain has found; C120_sampled and C120_lipschitz supply the hypothesis for the other bounds."
  }
 ]
}