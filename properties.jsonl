{"id": "C01", "title": "Geometry constructor accepts exactly the supported meshes", "statement": "Constructing Geometry_2D succeeds exactly when the generation method is 'internal' or 'external' and the mesh type is 'quadrilateral'; otherwise it raises ValueError, and when both arguments are wrong the generation method is the one reported.", "quantifier": "all strings for both arguments", "why_tests_cant": "the set of rejected strings is infinite; tests try a handful", "anchors": ["fastvpinns/Geometry/geometry_2d.py:Geometry_2D.__init__"]}
{"id": "C02", "title": "Internal mesh: the cells returned are the grid rectangles, in grid order", "statement": "generate_quad_mesh_internal returns nx*ny cells; the cell at position i*ny+j is the rectangle between the i-th and (i+1)-th grid lines in x and the j-th and (j+1)-th in y, with corners listed bottom-left, bottom-right, top-right, top-left, so the angular re-sorting never disturbs the order.", "quantifier": "all nx, ny and all domains with x0<x1, y0<y1", "why_tests_cant": "holds for unboundedly many grids; the test only checks shape[0] for a 4x4 grid", "anchors": ["fastvpinns/Geometry/geometry_2d.py:Geometry_2D.generate_quad_mesh_internal"]}
{"id": "C03", "title": "Internal mesh tiles the domain", "statement": "Every point of the rectangle [x0,x1]x[y0,y1] lies in some returned cell, every cell lies inside the rectangle, and two different cells share no interior point.", "quantifier": "all domains, all nx,ny>=1, all points of the plane", "why_tests_cant": "a statement about every point of a continuum", "anchors": ["fastvpinns/Geometry/geometry_2d.py:Geometry_2D.generate_quad_mesh_internal"]}
{"id": "C04", "title": "Internal boundary points lie on the side of their tag", "statement": "The boundary dictionary has exactly the keys 1000,1001,1002,1003 in this order; each holds floor(n/4) points; those of 1000/1001/1002/1003 lie on the bottom/right/top/left side of the domain respectively, whatever the random sampler returns in [0,1]; the k-th point of a side divides it in the ratio of the k-th sample. In total at most three of the n requested points are lost.", "quantifier": "all domains, all n, all outcomes of the random sampler", "why_tests_cant": "random sampling; a test sees a few draws", "anchors": ["fastvpinns/Geometry/geometry_2d.py:Geometry_2D.generate_quad_mesh_internal"]}
{"id": "C05", "title": "Internal test points form the full tensor grid", "statement": "get_test_points on an internal mesh returns n_test_x*n_test_y points, the k-th being (x-node k mod n_test_x, y-node k div n_test_x); all of them lie in the domain and for at least two points per direction the four corners of the domain are among them. On an external geometry it returns the first two coordinates of the points of external.vtk in file order; on an internal geometry without a mesh it raises TypeError.", "quantifier": "all domains and numbers of test points", "why_tests_cant": "all sizes; tests only check the count for a few", "anchors": ["fastvpinns/Geometry/geometry_2d.py:Geometry_2D.get_test_points"]}
{"id": "C06", "title": "Vertices of a cell are put into anticlockwise order", "statement": "Whatever order the four vertices of a strictly convex quadrilateral are listed in the mesh, the cell returned is a permutation of them that runs anticlockwise around the quadrilateral.", "quantifier": "all strictly convex quadrilaterals, all 24 listings of their vertices", "why_tests_cant": "continuum of quadrilaterals; only two meshes are tested", "anchors": ["fastvpinns/Geometry/geometry_2d.py:Geometry_2D.read_mesh"]}
{"id": "C07", "title": "Uniform boundary sampling stays on the boundary edges and keeps their end points", "statement": "With bd_sampling_method='uniform', for every boundary edge of the mesh and every refinement level, the 2^level+1 sampled points lie on the segment, are evenly spaced, and include both end points; every one of them is returned under the tag of the edge.", "quantifier": "all meshes, all levels", "why_tests_cant": "all edges and all levels", "anchors": ["fastvpinns/Geometry/geometry_2d.py:Geometry_2D.read_mesh"]}
{"id": "C08", "title": "Boundary points are grouped by tag without loss or duplicates", "statement": "The boundary dictionary returned by read_mesh has as keys exactly the tags occurring on boundary edges, in order of first occurrence; under each tag the points are strictly sorted lexicographically (so there are no duplicates) and are exactly the points sampled on the edges carrying that tag.", "quantifier": "all lists of tagged edges and all sample sets", "why_tests_cant": "all sequences of tags and coincidences between sampled points", "anchors": ["fastvpinns/Geometry/geometry_2d.py:Geometry_2D.read_mesh"]}
{"id": "C09", "title": "Latin hypercube boundary samples need not be on the boundary", "statement": "With bd_sampling_method='lhs' the sampled points are guaranteed to lie in the bounding rectangle of the edge; they are guaranteed to lie on the edge exactly when the edge is axis-parallel (for a slanted edge there is a sampler outcome that is off the edge).", "quantifier": "all edges, all sampler outcomes", "why_tests_cant": "random; the existing test checks only types", "anchors": ["fastvpinns/Geometry/geometry_2d.py:Geometry_2D.read_mesh"]}
{"id": "C10", "title": "read_mesh rejects bad files and sampling methods", "statement": "read_mesh raises ValueError when the file extension is not .mesh, before anything is read; for a .mesh file with at least one boundary edge it raises ValueError exactly when the sampling method is neither 'uniform' nor 'lhs'; with no boundary edges any method is accepted.", "quantifier": "all paths and method names, all meshes", "why_tests_cant": "infinitely many strings", "anchors": ["fastvpinns/Geometry/geometry_2d.py:Geometry_2D.read_mesh"]}
{"id": "C11", "title": "write_vtk refuses mismatched data and otherwise writes it losslessly", "statement": "write_vtk raises ValueError and leaves the output file untouched when the number of columns differs from the number of names; otherwise the output is the base file up to and including its first POINT_DATA line followed by one SCALARS block per name, in order, with the column's values in point order, so that the table can be read back from it.", "quantifier": "all base files, all data tables, all names", "why_tests_cant": "all sizes and contents", "anchors": ["fastvpinns/Geometry/geometry_2d.py:Geometry_2D.write_vtk"]}
{"id": "C12", "title": "FE set-up accepts exactly the supported settings", "statement": "On quadrilaterals the FE set-up succeeds exactly for 2<=fe_order<1000 and fe_type in {legendre, jacobi, legendre_special, chebyshev_2, jacobi_plain}, 3<=quad_order<=9999 and quad_type in {gauss-legendre, gauss-jacobi}, transformation in {affine, bilinear}; everything else is a ValueError. fe_order 1000..9999 is rejected although the message names 1e4 as the limit.", "quantifier": "all integers and strings", "why_tests_cant": "infinitely many settings", "anchors": ["fastvpinns/FE/fe2d_setup_main.py:FE2DSetupMain", "fastvpinns/FE/quadratureformulas_quad2d.py:Quadratureformulas_Quad2D.__init__"]}
{"id": "C13", "title": "Basis rows are the tensor products, in row-major order", "statement": "For each basis family and each of value, gradx, grady, gradxx, gradxy, gradyy, row N*i+j of the returned matrix at every point (xi,eta) is the product of the matching derivative of the i-th one-dimensional function at xi and the j-th at eta, and there are exactly N^2 rows.", "quantifier": "all orders N, all rows, all points", "why_tests_cant": "all orders and points", "anchors": ["fastvpinns/FE/basis_2d_QN_Legendre.py", "fastvpinns/FE/basis_2d_QN_Legendre_Special.py", "fastvpinns/FE/basis_2d_QN_Jacobi.py", "fastvpinns/FE/basis_2d_QN_Chebyshev_2.py"]}
{"id": "C14", "title": "Test functions vanish on the cell boundary (legendre, legendre_special, chebyshev_2)", "statement": "Every test function of the families legendre/jacobi, legendre_special and chebyshev_2 is zero on all four sides of the reference square, for every order.", "quantifier": "all orders, all basis functions, all boundary points", "why_tests_cant": "all orders; continuum of points", "anchors": ["fastvpinns/FE/basis_2d_QN_Legendre.py:test_fcnx", "fastvpinns/FE/basis_2d_QN_Legendre_Special.py:test_fcn", "fastvpinns/FE/basis_2d_QN_Chebyshev_2.py:test_fcnx"]}
{"id": "C15", "title": "Derivative formulas of the legendre basis are the derivatives of its values", "statement": "gradx, grady, gradxx, gradxy and gradyy of the legendre basis are, at every point, the corresponding partial derivatives of the function returned by value, for every order including the special-cased first two functions.", "quantifier": "all orders, all functions, all points", "why_tests_cant": "identity between functions on a continuum for all orders", "anchors": ["fastvpinns/FE/basis_2d_QN_Legendre.py:dtest_fcn"]}
{"id": "C16", "title": "Derivative formulas of the chebyshev_2 basis are the derivatives of its values", "statement": "gradx, grady, gradxx, gradxy and gradyy of the chebyshev_2 basis are the corresponding partial derivatives of the function returned by value, for every order including the special-cased first two functions.", "quantifier": "all orders, all functions, all points", "why_tests_cant": "identity between functions on a continuum for all orders", "anchors": ["fastvpinns/FE/basis_2d_QN_Chebyshev_2.py:dtest_fcn"]}
{"id": "C17", "title": "Derivative formulas of the jacobi_plain basis are the derivatives of its values", "statement": "gradx, ..., gradyy of the jacobi_plain basis are the corresponding partial derivatives of the function returned by value, for every order.", "quantifier": "all orders, all functions, all points", "why_tests_cant": "identity between functions on a continuum for all orders", "anchors": ["fastvpinns/FE/basis_2d_QN_Jacobi.py:djacobi"]}
{"id": "C18", "title": "legendre, jacobi and legendre_special are the same test space", "statement": "fe_type 'legendre' and 'jacobi' select the same basis, and 'legendre_special' returns at every point the same values and the same five derivative matrices as 'legendre', although it computes them differently.", "quantifier": "all orders, all points", "why_tests_cant": "equality of functions for all orders", "anchors": ["fastvpinns/FE/fe2d_setup_main.py", "fastvpinns/FE/basis_2d_QN_Legendre.py", "fastvpinns/FE/basis_2d_QN_Legendre_Special.py"]}
{"id": "C19", "title": "chebyshev_2 test functions are differences of Chebyshev polynomials of the first kind", "statement": "The n-th one-dimensional function of chebyshev_2 is T_{n+1}-T_{n-1}.", "quantifier": "all n, all points", "why_tests_cant": "all n", "anchors": ["fastvpinns/FE/basis_2d_QN_Chebyshev_2.py:test_fcnx"]}
{"id": "C20", "title": "Test functions are linearly independent and span the full bubble space", "statement": "The N one-dimensional functions of legendre/legendre_special/chebyshev_2 are linearly independent and every polynomial of degree at most N+1 vanishing at -1 and 1 is a combination of them; hence the N^2 products are linearly independent.", "quantifier": "all N", "why_tests_cant": "all N", "anchors": ["fastvpinns/FE/basis_2d_QN_Legendre.py", "fastvpinns/FE/basis_2d_QN_Chebyshev_2.py"]}
{"id": "C21", "title": "jacobi_plain test functions do not vanish on the boundary", "statement": "No one-dimensional function of jacobi_plain vanishes at 1: the n-th takes the value 1 at 1, so boundary terms do not drop out of the weak form.", "quantifier": "all orders", "why_tests_cant": "all orders", "anchors": ["fastvpinns/FE/basis_2d_QN_Jacobi.py:test_fcnx"]}
{"id": "C22", "title": "Two-dimensional quadrature is the tensor product in meshgrid order", "statement": "The quadrature rule has quad_order^2 points; point k has xi = node k mod n, eta = node k div n, and weight w[k mod n]*w[k div n].", "quantifier": "all orders, all k", "why_tests_cant": "all orders", "anchors": ["fastvpinns/FE/quadratureformulas_quad2d.py"]}
{"id": "C23", "title": "2D quadrature integrates polynomials exactly", "statement": "If the one-dimensional rule integrates all polynomials of degree at most d exactly on [-1,1], then the 2D rule integrates every sum of products p(xi)q(eta) with p, q of degree at most d exactly over the reference square; in particular its weights add up to 4, and they are positive if the 1D ones are.", "quantifier": "all 1D rules, all d, all polynomials", "why_tests_cant": "all polynomials", "anchors": ["fastvpinns/FE/quadratureformulas_quad2d.py"]}
{"id": "C24", "title": "The gauss-jacobi rule is the Gauss-Lobatto rule", "statement": "For every quad_order Q>=3 the rule built for 'gauss-jacobi' contains the end points -1 and 1, has positive weights adding up to 2 in 1D, and integrates every polynomial of degree at most 2Q-3 exactly, provided the interior nodes are the roots of the Jacobi polynomial P_{Q-2}^{(1,1)}.", "quantifier": "all Q, all polynomials", "why_tests_cant": "all Q and all polynomials; tests only compare areas for Q<10", "anchors": ["fastvpinns/FE/quadratureformulas_quad2d.py"]}
{"id": "C25", "title": "The reference square is mapped onto the cell", "statement": "The bilinear transformation sends the reference corners (-1,-1),(1,-1),(1,1),(-1,1) to vertices 0,1,2,3, each reference side affinely onto the corresponding side of the cell, and every reference point into the convex hull of the vertices.", "quantifier": "all quadrilaterals, all reference points", "why_tests_cant": "continuum", "anchors": ["fastvpinns/FE/quad_bilinear.py:QuadBilinear.get_original_from_ref"]}
{"id": "C26", "title": "Jacobian is the absolute determinant of the derivative of the map", "statement": "get_jacobian of the affine and of the bilinear transformation equals the absolute value of the determinant of the matrix of partial derivatives of get_original_from_ref at that point.", "quantifier": "all cells, all reference points", "why_tests_cant": "continuum", "anchors": ["fastvpinns/FE/quad_bilinear.py", "fastvpinns/FE/quad_affine.py"]}
{"id": "C27", "title": "Gradients on the physical cell obey the chain rule", "statement": "If u is a differentiable function on the plane and v = u composed with the reference map, then get_orig_from_ref_derivative applied to the reference partial derivatives of v returns the partial derivatives of u at the mapped point, wherever the Jacobian is non-zero, for both transformations.", "quantifier": "all cells, all differentiable u, all points with non-zero Jacobian", "why_tests_cant": "all functions and points", "anchors": ["fastvpinns/FE/quad_bilinear.py:get_orig_from_ref_derivative", "fastvpinns/FE/quad_affine.py:get_orig_from_ref_derivative"]}
{"id": "C28", "title": "Second derivatives on the physical cell", "statement": "For the affine transformation get_orig_from_ref_second_derivative returns the second partial derivatives of u for every twice differentiable u on every non-degenerate cell. For the bilinear transformation it does not: it returns the reference derivatives unchanged, which is wrong already on an axis-parallel square of side 1.", "quantifier": "all non-degenerate cells, all functions", "why_tests_cant": "all functions; no test checks it", "anchors": ["fastvpinns/FE/quad_affine.py:get_orig_from_ref_second_derivative", "fastvpinns/FE/quad_bilinear.py:get_orig_from_ref_second_derivative"]}
{"id": "C29", "title": "Affine and bilinear transformations agree exactly on parallelograms", "statement": "On a parallelogram both transformations give the same map, Jacobian and first derivatives at every point; on any other quadrilateral the affine one does not map the third reference corner to the third vertex.", "quantifier": "all quadrilaterals, all points", "why_tests_cant": "continuum", "anchors": ["fastvpinns/FE/quad_affine.py", "fastvpinns/FE/quad_bilinear.py"]}
{"id": "C30", "title": "The reference map does not fold on convex cells", "statement": "On a strictly convex quadrilateral listed anticlockwise the determinant of the bilinear map is positive at every reference point and the map is injective, so all quadrature weights on the cell are positive whenever the reference weights are.", "quantifier": "all strictly convex quadrilaterals, all points of the reference square", "why_tests_cant": "continuum", "anchors": ["fastvpinns/FE/quad_bilinear.py:get_jacobian", "fastvpinns/FE/FE2D_Cell.py"]}
{"id": "C31", "title": "Quadrature weights of a cell add up to its area", "statement": "The weights get_quadrature_weights reports for a strictly convex anticlockwise cell under the bilinear transformation add up to the polygon area of the cell; for the affine transformation they add up to the area of the parallelogram spanned at vertex 0. Summed over an internal mesh they give the area of the domain.", "quantifier": "all convex cells, all internal meshes, all 1D rules exact for linear functions", "why_tests_cant": "tests only compare areas up to 1e-4 on a handful of meshes", "anchors": ["fastvpinns/FE/FE2D_Cell.py:FE2D_Cell.assign_quad_weights_and_jacobians", "fastvpinns/FE/fespace2d.py:get_quadrature_weights"]}
{"id": "C32", "title": "Quadrature points lie inside their cell", "statement": "Every point returned by get_quadrature_actual_coordinates is in the convex hull of the cell's vertices (bilinear), and in the closed grid rectangle for internal meshes with either transformation.", "quantifier": "all cells, all rules with nodes in [-1,1]", "why_tests_cant": "continuum of cells", "anchors": ["fastvpinns/FE/FE2D_Cell.py:assign_quadrature_coordinates"]}
{"id": "C33", "title": "Physical test functions vanish on the cell boundary", "statement": "For legendre, legendre_special and chebyshev_2, the physical test function (reference function composed with the inverse map) is zero on all edges of the cell.", "quantifier": "all cells, orders, boundary points", "why_tests_cant": "continuum", "anchors": ["fastvpinns/FE/FE2D_Cell.py", "fastvpinns/FE/quad_bilinear.py"]}
{"id": "C34", "title": "Cell accessors never read out of range and report the constructor's data", "statement": "Each of the per-cell accessors raises ValueError exactly for indices <0 or >=n_cells and otherwise returns the array computed for that cell.", "quantifier": "all integer indices, all spaces", "why_tests_cant": "all indices", "anchors": ["fastvpinns/FE/fespace2d.py"]}
{"id": "C35", "title": "Arrays handed out by Fespace2D are independent copies", "statement": "Whatever sequence of accessor calls is made and however the caller overwrites the arrays obtained, later accessor calls still return the original data.", "quantifier": "all finite histories of accessor calls and writes by the caller", "why_tests_cant": "all histories", "anchors": ["fastvpinns/FE/fespace2d.py"]}
{"id": "C36", "title": "Degrees of freedom are counted per quadrature point", "statement": "total_dofs reported by the space is n_cells times quad_order^2; constructing a space with no cells fails.", "quantifier": "all meshes", "why_tests_cant": "all meshes", "anchors": ["fastvpinns/FE/fespace2d.py:set_finite_elements"]}
{"id": "C37", "title": "Dirichlet data", "statement": "generate_dirichlet_boundary_data returns one row per boundary point, in dictionary order and point order, with the coordinates of the point and the value of the boundary function registered for its tag at that point; it raises KeyError exactly if some tag that has at least one point has no registered function. The vector variant returns the requested component.", "quantifier": "all boundary dictionaries and functions", "why_tests_cant": "all dictionaries", "anchors": ["fastvpinns/FE/fespace2d.py:generate_dirichlet_boundary_data", "fastvpinns/FE/fespace2d.py:generate_dirichlet_boundary_data_vector"]}
{"id": "C38", "title": "Plot statistics and plot limits", "statement": "With generate_mesh_plot the reported number of boundary points exceeds the true number by one per tag, and the constructor fails with IndexError when there are 16 or more tags or a tag has no points.", "quantifier": "all boundary dictionaries", "why_tests_cant": "all dictionaries", "anchors": ["fastvpinns/FE/fespace2d.py:generate_plot"]}
{"id": "C39", "title": "Forcing vector is the quadrature of the forcing function against the test functions", "statement": "get_forcing_function_values(c) returns for each test function t the sum over quadrature points of weight*jacobian*test value*f(point); it is linear in f, repeated calls return the same, and the vector variant returns the scalar result of the requested component.", "quantifier": "all f, all cells, all call histories", "why_tests_cant": "all functions", "anchors": ["fastvpinns/FE/fespace2d.py:get_forcing_function_values", "fastvpinns/FE/fespace2d.py:get_forcing_function_values_vector"]}
{"id": "C40", "title": "Sensor data", "statement": "get_sensor_data returns floor(0.9*n) points, all inside the bounding box of the mesh, paired with the exact solution at the same points, for every sampler outcome; the external variant returns n rows, each pairing the coordinates and the value of one row of the file after its first line, ignores the exact solution passed in, and raises ValueError if no file name is given or if the file has at most one line; the first line of the file is never used.", "quantifier": "all meshes, n, sampler outcomes", "why_tests_cant": "random", "anchors": ["fastvpinns/FE/fespace2d.py:get_sensor_data", "fastvpinns/FE/fespace2d.py:get_sensor_data_external"]}
{"id": "C41", "title": "Tensors handed to the network are laid out consistently", "statement": "Row c*n_quad+q of the input tensor is quadrature point q of cell c, so that reshaping the network output to (n_cells, n_quad) pairs each predicted value with the test function values and weights of the same cell and the same point.", "quantifier": "all numbers of cells and quadrature points", "why_tests_cant": "all shapes", "anchors": ["fastvpinns/data/datahandler2d.py:DataHandler2D.__init__", "fastvpinns/model/model.py:train_step"]}
{"id": "C42", "title": "Loss functions are the discrete weak forms", "statement": "For each cell the Poisson / convection-diffusion / Helmholtz loss is the mean over test functions v of the square of eps*sum w(u_x v_x+u_y v_y) [+ b_x sum w u_x v + b_y sum w u_y v + c sum w u v] - sum w f v; respectively -eps*(...)+k^2 sum w u v - sum w f v.", "quantifier": "all cells, predictions, parameters", "why_tests_cant": "all inputs", "anchors": ["fastvpinns/physics/poisson2d.py", "fastvpinns/physics/cd2d.py", "fastvpinns/physics/helmholtz2d.py"]}
{"id": "C43", "title": "Losses are non-negative and vanish exactly when every tested residual vanishes", "statement": "Each entry of the loss is >=0 and is 0 iff all residuals of that cell are 0.", "quantifier": "all inputs", "why_tests_cant": "all inputs", "anchors": ["fastvpinns/physics/"]}
{"id": "C44", "title": "Specialisations between the losses agree", "statement": "Convection-diffusion with b=0,c=0 equals Poisson; Helmholtz with (eps,k) equals convection-diffusion with (-eps, 0, 0, k^2); the inverse losses equal the forward losses at the same parameter values; the space-dependent inverse loss with a constant coefficient equals the forward loss.", "quantifier": "all inputs", "why_tests_cant": "all inputs", "anchors": ["fastvpinns/physics/"]}
{"id": "C45", "title": "Losses are local and order-independent", "statement": "The loss of a cell depends only on that cell's data; permuting cells permutes the result; permuting quadrature points or test functions within a cell leaves it unchanged; hence the total loss is independent of numbering.", "quantifier": "all permutations", "why_tests_cant": "all permutations", "anchors": ["fastvpinns/physics/"]}
{"id": "C46", "title": "The exact solution has zero PDE loss", "statement": "On an internal rectangular mesh with test functions vanishing on the boundary and a quadrature rule exact for the degrees involved, if the network output is a polynomial u solving -eps*Lap u + b.grad u + c u = f (resp. eps*Lap u + k^2 u = f for Helmholtz) then every entry of the loss is zero.", "quantifier": "all polynomial solutions, all parameters, all meshes, all orders with a sufficient rule", "why_tests_cant": "end-to-end statement about all solutions and meshes; tests check training errors of a few runs", "anchors": ["fastvpinns/physics/", "fastvpinns/FE/fespace2d.py", "fastvpinns/data/datahandler2d.py", "fastvpinns/Geometry/geometry_2d.py"]}
{"id": "C47", "title": "Total training loss", "statement": "train_step of DenseModel reports loss_pde = sum of cell losses, loss_dirichlet = mean squared boundary error and loss = loss_pde + beta*loss_dirichlet; the inverse models add 10 times the mean squared sensor error; the hard-constraint model reports 0 for the boundary and ignores beta. For beta>0 the loss is 0 iff all residuals and all boundary (and sensor) errors are 0.", "quantifier": "all predictions, all beta", "why_tests_cant": "all inputs", "anchors": ["fastvpinns/model/"]}
{"id": "C48", "title": "Hard constraints are satisfied by construction", "statement": "DenseModel_Hard returns g(inputs, network(inputs)); hence if g forces the boundary value (g(x,u)=d(x) on the boundary for every u), the prediction equals the boundary value there for all weights; without a constraint function the output is the plain network.", "quantifier": "all networks/weights, inputs, constraint functions", "why_tests_cant": "all weights", "anchors": ["fastvpinns/model/model_hard.py"]}
{"id": "C49", "title": "Which loss function can be used with which model", "statement": "train_step calls the loss by keyword: forward models bind poisson2d, cd2d, helmholtz2d; DenseModel_Inverse binds poisson2d_inverse but not cd2d_inverse (unexpected keyword -> TypeError); the domain-inverse model binds cd2d_inverse_domain.", "quantifier": "all argument values", "why_tests_cant": "API-level claim over all calls", "anchors": ["fastvpinns/model/", "fastvpinns/physics/"]}
{"id": "C50", "title": "Learning rate dictionary and schedule", "statement": "DenseModel needs the keys initial_learning_rate, use_lr_scheduler, decay_steps, decay_rate; the hard and inverse models additionally need 'staircase' (KeyError otherwise) although its value is ignored: with the scheduler on, the rate at step s is always initial*decay^(floor(s/decay_steps)), constant otherwise; it is non-increasing for 0<decay<=1.", "quantifier": "all dictionaries, all steps", "why_tests_cant": "all steps", "anchors": ["fastvpinns/model/"]}
{"id": "C51", "title": "Layer construction", "statement": "For layer_dims of length >=2 the network consists of len-2 hidden layers of the listed widths with the activation and one linear output layer of the last width; so it maps inputs of width layer_dims[0] to outputs of width layer_dims[-1], and a parameter count follows.", "quantifier": "all layer lists", "why_tests_cant": "all lists", "anchors": ["fastvpinns/model/model.py"]}
{"id": "C52", "title": "Configuration round trip", "statement": "Rebuilding a model from get_config reproduces all constructor arguments for DenseModel and the inverse models; for DenseModel_Hard the constraint function is lost (rebuilt model is unconstrained).", "quantifier": "all constructor arguments", "why_tests_cant": "all arguments", "anchors": ["fastvpinns/model/"]}
{"id": "C53", "title": "Error measures are distances", "statement": "l1, l2 and linf errors are the mean absolute difference, the root of the mean squared difference and the largest absolute difference; they are non-negative, zero exactly for equal arrays, symmetric and satisfy the triangle inequality.", "quantifier": "all non-empty arrays of equal length", "why_tests_cant": "all arrays", "anchors": ["fastvpinns/utils/compute_utils.py"]}
{"id": "C54", "title": "Error measures are ordered", "statement": "l1 <= l2 <= linf <= sqrt(N)*l2 and linf <= N*l1 for arrays of N>=1 entries.", "quantifier": "all arrays", "why_tests_cant": "all arrays", "anchors": ["fastvpinns/utils/compute_utils.py"]}
{"id": "C55", "title": "Relative errors are scale invariant", "statement": "The relative errors are the norms of the difference divided by the norms of the exact array. Scaling exact and approximate arrays by the same non-zero factor leaves all three unchanged and scales the absolute errors by its absolute value; permuting the entries changes nothing; the zero approximation has relative error 1 whenever the exact array is not zero.", "quantifier": "all arrays and factors", "why_tests_cant": "all arrays", "anchors": ["fastvpinns/utils/compute_utils.py"]}
{"id": "C56", "title": "compute_errors_combined returns the six measures in documented order", "statement": "The tuple is (l2, linf, relative l2, relative linf, l1, relative l1), each equal to the individual function, independently of the arrays' shapes before flattening.", "quantifier": "all arrays", "why_tests_cant": "all arrays", "anchors": ["fastvpinns/utils/compute_utils.py:compute_errors_combined"]}
{"id": "C57", "title": "print_table prints exactly the common prefix", "statement": "The table has one row per index below the shorter of the two columns.", "quantifier": "all lists", "why_tests_cant": "all lists", "anchors": ["fastvpinns/utils/print_utils.py"]}
{"id": "C58", "title": "GPU assignment in the tuner", "statement": "Trial t is run on GPU t mod g, always a valid index when g>=1; any g consecutive trials use all GPUs once; with no GPU the trial fails with ZeroDivisionError. The number of parallel jobs never exceeds the number of GPUs.", "quantifier": "all trial numbers and GPU counts", "why_tests_cant": "all trials", "anchors": ["fastvpinns/hyperparameter_tuning/optuna_tuner.py"]}
{"id": "C59", "title": "Every point of the hyper-parameter search space is accepted by the library", "statement": "All settings the objective can draw pass the geometry, FE, quadrature and model validation.", "quantifier": "all points of the search space", "why_tests_cant": "the search space is huge", "anchors": ["fastvpinns/hyperparameter_tuning/objective.py"]}
{"id": "C60", "title": "Example problems are consistent", "statement": "In the shipped examples with an analytic solution, rhs equals the differential operator (with the example's parameters and the sign convention of the loss used) applied to exact_solution, and the boundary functions agree with exact_solution on the boundary, at every point.", "quantifier": "all points of the plane", "why_tests_cant": "continuum", "anchors": ["examples/forward_problems_2d", "examples/inverse_problems_2d"]}
{"id": "C61", "title": "Examples reshape the test grid correctly only for square grids", "statement": "Reshaping the internal test points to (n_test_x, n_test_y) as the example drivers do gives an x-matrix constant along columns together with a y-matrix constant along rows exactly when n_test_x = n_test_y (for at least two points per direction and a non-degenerate domain).", "quantifier": "all grid sizes", "why_tests_cant": "all sizes", "anchors": ["examples/forward_problems_2d/uniform_mesh/poisson_2d/main_poisson2d.py", "fastvpinns/Geometry/geometry_2d.py:get_test_points"]}
{"id": "C62", "title": "Boundary points are filed under the references of their edges", "statement": "read_mesh files the points sampled on an edge under the medit reference that the mesh file gives to that edge.  This holds when the edges are the first block of the file; when another block comes first the code uses that block's references instead, and the claim is false.", "quantifier": "all meshes, all refinement levels, both sampling methods", "why_tests_cant": "depends on block order and references of arbitrary files", "anchors": ["fastvpinns/Geometry/geometry_2d.py:Geometry_2D.read_mesh"]}
{"id": "C63", "title": "When a finite element space can be built", "statement": "Without plotting, constructing Fespace2D succeeds exactly when there is at least one cell, the cells are quadrilaterals, fe_order, fe_type, quad_order, quad_type and the transformation are supported, no cell is degenerate at vertex 0 if the transformation is affine, and every tag that has boundary points has a boundary function.", "quantifier": "all meshes, settings and dictionaries", "why_tests_cant": "the exact set of accepted inputs is infinite on both sides", "anchors": ["fastvpinns/FE/fespace2d.py:Fespace2D.__init__", "fastvpinns/FE/FE2D_Cell.py:FE2D_Cell.__init__"]}
{"id": "C64", "title": "Model constructors wire their arguments as documented", "statement": "For each of the four model classes: a model can be built exactly when tensor_dtype is a TensorFlow dtype, the lists of matrices and input tensors have enough entries, params_dict has the keys used, the learning-rate dictionary has its four keys and layer_dims is not empty; then pre_multiplier_val/grad_x/grad_y are entries 0,1,2 of orig_factor_matrices, input_tensor/dirichlet_input/dirichlet_actual entries 0,1,2 of input_tensors_list, the learning rate and the layers are those asked for, and an invalid dtype is a TypeError whatever the other arguments (for the inverse models possibly an IndexError if sensor_list has fewer than two entries).", "quantifier": "all keyword argument lists", "why_tests_cant": "all argument combinations", "anchors": ["fastvpinns/model/model.py:DenseModel.__init__", "fastvpinns/model/model_hard.py:DenseModel_Hard.__init__", "fastvpinns/model/model_inverse.py:DenseModel_Inverse.__init__", "fastvpinns/model/model_inverse_domain.py:DenseModel_Inverse_Domain.__init__"]}
{"id": "C65", "title": "Trials running at the same time use different GPUs", "statement": "At no moment of a study do two running trials use the same GPU (as long as no more trials run in parallel than there are GPUs).", "quantifier": "all orders in which the trials of a study start and finish", "why_tests_cant": "depends on the running times of the trials", "anchors": ["fastvpinns/hyperparameter_tuning/optuna_tuner.py:38-56"]}
{"id": "C66", "title": "Test points follow the mesh over the lifetime of a geometry object", "statement": "For an external geometry, after a successful read_mesh and any later calls that neither load or generate a mesh nor overwrite external.vtk (failed reads, get_test_points and write_vtk to other files are allowed), get_test_points returns exactly the points of the mesh that was read, in file order, all vertices of the returned cells are among them, and write_vtk puts row k of the solution at point k of that mesh. For an internal geometry get_test_points is the tensor grid on the limits last passed to generate_quad_mesh_internal, whatever happened in between (even if writing the VTK file raised, or another mesh was read). read_mesh on an internal geometry without limits always raises, after having stored the mesh. On an optimised internal geometry write_vtk raises FileNotFoundError unless something else created internal.vtk.", "quantifier": "all histories of method calls, all file systems, all meshes", "why_tests_cant": "unbounded histories of calls including calls that raise half-way", "anchors": ["fastvpinns/Geometry/geometry_2d.py:Geometry_2D.read_mesh", "fastvpinns/Geometry/geometry_2d.py:Geometry_2D.generate_quad_mesh_internal", "fastvpinns/Geometry/geometry_2d.py:Geometry_2D.generate_vtk_for_test", "fastvpinns/Geometry/geometry_2d.py:Geometry_2D.get_test_points", "fastvpinns/Geometry/geometry_2d.py:Geometry_2D.write_vtk"]}
{"id": "C67", "title": "The stored internal mesh describes the cells", "statement": "After generate_quad_mesh_internal the attribute mesh is a mesh of the returned cells: its points are the vertices of the cells and its connectivity lists, for each cell, the numbers of its vertices.", "quantifier": "all domains and numbers of cells", "why_tests_cant": "all sizes; no test looks at the connectivity", "anchors": ["fastvpinns/Geometry/geometry_2d.py:Geometry_2D.generate_quad_mesh_internal"]}
{"id": "C68", "title": "Quadrature sums are integrals over the cells", "statement": "For a strictly convex cell (with the affine transformation: a parallelogram) and every polynomial g of a degree the chosen rule handles, the sum of reported weight times value at the reported physical point equals the Lebesgue integral of g over the cell; on non-overlapping meshes, in particular the internal rectangular mesh, the sums over all cells add up to the integral over the domain; and the entries of the forcing vector are the exact integrals of forcing function times test function when the forcing function is such a polynomial.", "quantifier": "all meshes, all cells, all element and quadrature settings accepted by the constructor, all polynomials within the degree", "why_tests_cant": "A test compares a few integrals in floating point; it cannot cover all cells, all orders and all polynomials, and the identity with the integral over the physical cell rests on a change of variables.", "anchors": ["fastvpinns/FE/fespace2d.py:Fespace2D.get_quadrature_weights", "fastvpinns/FE/fespace2d.py:Fespace2D.get_quadrature_actual_coordinates", "fastvpinns/FE/fespace2d.py:Fespace2D.get_forcing_function_values", "fastvpinns/FE/FE2D_Cell.py", "fastvpinns/FE/quad_bilinear.py", "fastvpinns/FE/quad_affine.py", "fastvpinns/FE/quadratureformulas_quad2d.py"]}
{"id": "C69", "title": "The training residuals approximate the variational problem", "statement": "For every function continuous on a strictly convex cell, the quadrature sum differs from the integral by at most 8 times the distance (in the maximum norm on the reference square) from the polynomials the rule integrates exactly. For every network that is a continuously differentiable function, the PDE loss reported by a training step is the sum over the cells of the mean square of residuals that differ from the weak form of the equation by at most 8 times that distance of the integrand; these distances tend to zero as the degree grows. The same for both inverse models.", "quantifier": "all meshes of strictly convex cells, all smooth network functions, all accepted settings, all test functions", "why_tests_cant": "The claim relates the code to integrals of arbitrary smooth functions over arbitrary cells; tests see finitely many functions and have no exact integral to compare with.", "anchors": ["fastvpinns/physics/poisson2d.py", "fastvpinns/physics/cd2d.py", "fastvpinns/physics/helmholtz2d.py", "fastvpinns/physics/poisson2d_inverse.py", "fastvpinns/physics/cd2d_inverse_domain.py", "fastvpinns/model/model.py:DenseModel.train_step", "fastvpinns/model/model_hard.py", "fastvpinns/model/model_inverse.py", "fastvpinns/model/model_inverse_domain.py", "fastvpinns/FE/fespace2d.py"]}
{"id": "C70", "title": "Classical solutions have a small loss", "statement": "If the network is a classical solution of the equation on all cells (not necessarily a polynomial), its weak form vanishes for every test function, and the PDE loss reported by a training step is at most 64 delta^2 per cell, delta being the distance of the integrands from the polynomials that the rule integrates exactly. With boundary (and sensor) data that agree with the solution the total loss has the same bound for every beta.", "quantifier": "all meshes of strictly convex cells, all classical solutions, all accepted settings, all beta", "why_tests_cant": "A test can try a manufactured solution on one mesh; that the loss vanishes up to the quadrature error for every solution on every mesh (integration by parts, test functions vanishing on all edges) needs a proof.", "anchors": ["fastvpinns/physics", "fastvpinns/model/model.py:DenseModel.train_step", "fastvpinns/model/model_hard.py", "fastvpinns/model/model_inverse.py", "fastvpinns/model/model_inverse_domain.py", "fastvpinns/FE/basis_2d_QN_Legendre.py", "fastvpinns/FE/basis_2d_QN_Jacobi.py"]}
{"id": "C71", "title": "The shipped examples have a small loss at their exact solutions", "statement": "With the uniform-mesh Poisson example's boundary data, forcing, parameters and internal mesh of nx by ny cells, a network equal to the example's exact solution gets a total loss of at most nx ny (8 delta)^2 with delta given explicitly by nx, ny, the number of test functions and the quadrature order (going to zero faster than exponentially in the order). For the other forward and the inverse examples the loss is at most 64 delta^2 per cell with delta the distance from polynomials.", "quantifier": "all numbers of cells, all boundary samples, all accepted settings, all beta", "why_tests_cant": "It ties the formulas in the example files to the loss code for every discretisation; a test fixes one discretisation and a tolerance.", "anchors": ["examples/forward_problems_2d/uniform_mesh/poisson_2d/sin_cos.py", "examples/forward_problems_2d/complex_mesh", "examples/inverse_problems_2d", "fastvpinns/physics/poisson2d.py"]}
{"id": "C72", "title": "Training at a zero-loss solution is stationary", "statement": "For each of the four model classes: if the current weights give loss exactly zero, beta is non-negative (not needed for the hard-constraint model) and the optimizer has no momentum (as a freshly constructed Adam), then calling train_step any number of times returns the same dictionary every time and changes no weight (nor any inverse parameter). In particular, a network that is an exact solution which the quadrature rule handles stays one for ever, on every mesh of strictly convex cells.", "quantifier": "all meshes, test spaces, networks, activations (also with attention), parameters, learning-rate schedules, numbers of epochs", "why_tests_cant": "A test trains a few epochs from random weights; it never starts at an exact zero and cannot run every number of epochs on every problem.", "anchors": ["fastvpinns/model/model.py:DenseModel.train_step", "fastvpinns/model/model_hard.py:DenseModel_Hard.train_step", "fastvpinns/model/model_inverse.py:DenseModel_Inverse.train_step", "fastvpinns/model/model_inverse_domain.py:DenseModel_Inverse_Domain.train_step"]}
{"id": "C73", "title": "train_step follows the true gradient of the variational loss and decreases it", "statement": "For each of the four model classes with a twice continuously differentiable activation (as tanh) and without attention: every gradient entry handed to the optimizer - including that of the inverse parameter eps - is the exact derivative of the total loss (PDE loss + beta * boundary loss [+ 10 * sensor loss]) of the network function; each trainable variable, and no other, is updated with its own entry by the Adam rule, and the returned losses belong to the weights before the update; unless all entries vanish, the loss reported in the second epoch of a new optimizer is strictly smaller than that of the first for every small enough positive learning rate.", "quantifier": "all architectures, weights, meshes, loss functions and parameters, all small enough learning rates", "why_tests_cant": "A loss curve that decreases in one test says nothing about other weights or problems; a gradient paired with the wrong variable or missing a term of the loss can still decrease the loss in a test.", "anchors": ["fastvpinns/model/model.py:DenseModel.train_step", "fastvpinns/model/model_hard.py:DenseModel_Hard.train_step", "fastvpinns/model/model_inverse.py:DenseModel_Inverse.train_step", "fastvpinns/model/model_inverse_domain.py:DenseModel_Inverse_Domain.train_step"]}
{"id": "C74", "title": "Reach of the training", "statement": "In a training from a new optimizer, epoch k moves no weight by more than 7.3 times the learning rate of step k, whatever the loss is. With the learning-rate schedule on and 0 <= decay_rate < 1, every weight stays for ever within 7.3 * initial_learning_rate * decay_steps / (1 - decay_rate) of its initial value, and converges. The inverse parameters obey the same bound, and the last reported inverse_params are the values after the last update.", "quantifier": "all losses, networks, schedules, numbers of epochs", "why_tests_cant": "The bound is over all gradients sequences and unlimited training lengths.", "anchors": ["fastvpinns/model/model.py:DenseModel.__init__", "fastvpinns/model/model.py:DenseModel.train_step", "fastvpinns/model/model_inverse.py:DenseModel_Inverse.train_step"]}
{"id": "C75", "title": "Every attribute of a finite element cell", "statement": "A constructed FE2D_Cell keeps its coordinates and the points and weights of its rule; jacobian is the absolute determinant of its map at the points, mult the product with the weights, quad_actual_coordinates the mapped points; the reference gradients are those of the reference test functions. With the affine map the stored second derivatives are mult times the second partial derivatives, at the mapped points, of the test functions on the cell; with the bilinear map they are mult times the reference second derivatives, untransformed. forcing_at_quad is zero.", "quantifier": "all cells, orders, test spaces, rules and both maps for which the constructor succeeds", "why_tests_cant": "all cells and all orders; second derivatives are read by no test", "anchors": ["fastvpinns/FE/FE2D_Cell.py:FE2D_Cell.__init__", "fastvpinns/FE/FE2D_Cell.py:assign_basis_values_at_quadrature_points", "fastvpinns/FE/FE2D_Cell.py:assign_quad_weights_and_jacobian"]}
{"id": "C76", "title": "What a training script leaves behind", "statement": "Whenever a training script of the forward examples finishes, it has trained the network (widths 2,30,30,30,1 where the layers are written in the script, model_architecture otherwise) from the initial weights for exactly n_epochs steps, with tensors, boundary data, learning rate and loss assembled from its configuration for its mesh; each report carries the losses before and the errors after its epoch; loss_function.txt, prediction.txt, exact.txt, error.txt, time_per_epoch.txt, the error and time tables, the VTK files and the saved weights all belong to that training, and no other file changes. The scripts finish exactly for valid configurations with at least one epoch and a non-zero reporting interval; the shipped configurations are valid. A script that builds the rectangle finishes only with mesh_generation_method internal, a script on mesh files only with external.", "quantifier": "all configurations (with the attention layer the network is the one of C77, evaluated at averaged points), example problems, meshes, initial weights, samplers and clocks; the meaning of the losses for networks without attention layer", "why_tests_cant": "the scripts are not tested at all, and the claim is about whole runs of any length with any configuration", "anchors": ["examples/forward_problems_2d/uniform_mesh/poisson_2d/main_poisson2d.py", "examples/forward_problems_2d/uniform_mesh/helmholtz_2d/main_helmholtz.py", "examples/forward_problems_2d/hard_boundary_constraints/poisson_2d/main_poisson2d_hard.py", "examples/forward_problems_2d/complex_mesh/cd2d/main_cd2d.py"]}
{"id": "C77", "title": "Attention layer", "statement": "With use_attention=True the network of a model is the plain network evaluated at averaged points: every point is replaced by the mean of all points of the batch, weighted with the exponentials of the scalar products. The layer never fails, is equivariant under permutations of the batch and stays in the convex hull of the batch. The output at a point is independent of the other points of the batch exactly if the plain network is constant, and the gradient the tape sums up per input row is in general not the derivative of the value at that point.", "quantifier": "all architectures with two inputs, all batches, all weights", "why_tests_cant": "the dependence on the batch shows only when the same point is evaluated in different batches; universality over batches and weights", "anchors": ["fastvpinns/model/model.py:call", "fastvpinns/model/model_hard.py:call", "fastvpinns/model/model_inverse.py:call"]}
{"id": "C78", "title": "The constant inverse script trains on what it says and reports what it trained", "statement": "Whenever main_inverse.py finishes, the mesh is internal, the network has two inputs and one output and there were at least two epochs. The network and the unknown eps were then trained for the configured number of epochs, from the drawn weights and the initial guess of eps, on the tensors, boundary data and learning rate of the configuration and on floor(0.9 n) sensors inside the domain carrying values of the exact solution. Every report, the prediction, exact, error, loss and time files, the history of eps in inverse_params.txt and the two tables belong to that training. The losses of an epoch are those of the network with the current eps as diffusion coefficient. The script finishes for exactly the valid configurations with at least two epochs for which the learning rate of the optimiser can be printed, in particular for the shipped one. Findings: with an external mesh it never finishes; with a learning rate schedule it never finishes if a schedule cannot be converted with .numpy(); with fewer than two epochs it ends in IndexError; the reported total time omits the first epoch; the printed epochs per second is too high before the first full reporting interval.", "quantifier": "all configurations, problems, meshes, drawn weights, boundary, hypercube and sensor samples, epoch durations and numbers of epochs; with the attention layer the network is the one of C77; the meaning of the losses for networks without attention layer", "why_tests_cant": "a test runs a few epochs of one configuration and cannot see that every file belongs to the same state of the training for every configuration, nor that no configuration with an external mesh can finish", "anchors": ["examples/inverse_problems_2d/const_inverse_poisson2d/main_inverse.py:40-482", "examples/inverse_problems_2d/const_inverse_poisson2d/inverse_uniform.py", "examples/inverse_problems_2d/const_inverse_poisson2d/input_inverse.yaml", "fastvpinns/model/model_inverse.py:20-338"]}
{"id": "C79", "title": "The scripts for a space-dependent coefficient train and report what they say", "statement": "Whenever main_inverse_domain_usa.py or main_inverse_domain_circle.py finishes on a mesh file, the network has two inputs and at least two outputs and there were at least two epochs. Output 0 was trained as solution and output 1 as diffusion coefficient, on the tensors, boundary data and learning rate assembled from the configuration for the cells and boundary points of the mesh file, and on the sensors: in the first script the configured number of mesh points, none more often than it occurs in the mesh, with values of the exact solution; in the second the drawn lines of the CSV file with their values. Every report, VTK file, text file and table belongs to that training; no other file changes. The losses of an epoch are those of the weak form with output 1 as coefficient, and the total is PDE + beta * boundary + 10 * sensors. The scripts finish for exactly the valid configurations with at least two epochs, a CSV file with as many lines as mesh points (second script), and a learning rate that can be printed. Findings: with a learning rate schedule, as in the shipped configuration of the first script, they never finish if a schedule cannot be converted with .numpy(); because of a missing comma the table of times shows epochs per second as total time; the first line of the CSV file is never a sensor. The scripts finish only with mesh_generation_method internal or external (C98 covers internal); architectures [n] behave as [n, n].", "quantifier": "all configurations, problems, mesh files, drawn weights, shuffles, sensor draws, epoch durations and numbers of epochs; with the attention layer the network is the one of C77; the meaning of the losses for networks without attention layer", "why_tests_cant": "a run takes thousands of epochs and shows one configuration; that each file belongs to the same state of the training, and which configurations finish at all, are statements about all of them", "anchors": ["examples/inverse_problems_2d/domain_inverse_cd2d/USA/main_inverse_domain_usa.py:40-479", "examples/inverse_problems_2d/domain_inverse_cd2d/circle/main_inverse_domain_circle.py:40-483", "examples/inverse_problems_2d/domain_inverse_cd2d/USA/cd2d_inverse_usa_example.py", "examples/inverse_problems_2d/domain_inverse_cd2d/circle/cd2d_inverse_circle_example.py", "fastvpinns/model/model_inverse_domain.py"]}
{"id": "C80", "title": "The gear script compares with the values of the file at the vertices of the mesh", "statement": "main_gear_cd2d.py with exact_solution_generation internal is the script for mesh files of C76 with the configured architecture. With any other value, whenever it finishes, the CSV file has a third column with one value per vertex of the mesh; if the vertices are distinct, the column is a function of the vertex, and all reports, text files, tables and VTK fields are those of C76 with this function in the place of the exact solution. The script finishes exactly if the file has such a column and the conditions of C76 hold, in particular in the shipped configuration for a mesh with tags 1000 and 1001 and a file with one line per vertex. Finding: the coordinates in the file are never compared with those of the mesh, so a file with the vertices in another order is silently compared with the wrong values. It finishes only with mesh_generation_method external.", "quantifier": "all configurations, problems, mesh files, CSV files, drawn weights, epoch durations and numbers of epochs; with the attention layer the network is the one of C77", "why_tests_cant": "a run takes 150000 epochs on 14954 vertices with a shipped file whose order happens to match; no test can show which files are accepted and what they are taken for", "anchors": ["examples/forward_problems_2d/complex_mesh/cd2d_gear/main_gear_cd2d.py:36-360", "examples/forward_problems_2d/complex_mesh/cd2d_gear/cd2d_gear_example.py", "examples/forward_problems_2d/complex_mesh/cd2d_gear/input.yaml"]}
{"id": "C81", "title": "The scripts run what their configuration file says", "statement": "Each of the eleven scripts, started with a file that contains the entries it reads with values of the right type and dtype float64 or float32, behaves as the script of C76, C78, C79 or C80 for the configuration with exactly those values, and it finishes only for such a file. A file describes at most one configuration; further entries and the order of entries do not matter. Without exactly one argument the script exits with code 1; if the file cannot be loaded, it ends with that exception; a missing entry ends it with an exception before it does anything else (KeyError if it is the only one missing); another dtype is a ValueError. Started with the files they are shipped with, the scripts finish. Finding: some entries must be present but have no effect (exact solution, architecture, rectangle, depending on the script).", "quantifier": "all trees a YAML file can contain, all command lines, problems, machines, random draws and file systems", "why_tests_cant": "there are infinitely many configuration files, and a wrong key would only show for files in which the two entries differ", "anchors": ["examples/forward_problems_2d/uniform_mesh/poisson_2d/main_poisson2d.py:36-94", "examples/forward_problems_2d/hard_boundary_constraints/poisson_2d/main_poisson2d_hard.py:36-92", "examples/inverse_problems_2d/const_inverse_poisson2d/main_inverse.py:44-101", "examples/inverse_problems_2d/domain_inverse_cd2d/circle/main_inverse_domain_circle.py:41-99", "examples/forward_problems_2d/uniform_mesh/poisson_2d/input.yaml"]}
{"id": "C82", "title": "A hyper-parameter study returns the best of its trials", "statement": "Every point of the search space gives a value: the relative error, over the 100 x 100 test points, of the network after n epochs of training with these hyper-parameters. For three layers of 30 neurons this is the relative error that the training script reports for the configuration with the same values, boundary points and initial weights, and the script finishes for every such configuration. With at least one GPU, whatever points are suggested and in whatever order the trials end, the tuner of the script never fails on a trial, never deadlocks, runs exactly n_trials new trials with consecutive numbers and returns parameters with the least value among these and the completed trials already in the storage; with an empty storage, these are the best of this run. Without a GPU it always ends with an exception. Without --optimized the script behaves as the Poisson script on the rectangle for the configuration in the file, and exits with code 1 if there is none. Findings: trials of earlier runs with another number of epochs are compared with the new ones; with --optimized nothing is trained with the parameters found.", "quantifier": "all points of the search space, initial weights, random draws, numbers of epochs, trials and GPUs, orders of events, contents of the storage, configuration files", "why_tests_cant": "the orders in which parallel trials start and end and the suggested points are unbounded, and a trial takes minutes to train", "anchors": ["fastvpinns/hyperparameter_tuning/objective.py:33-145", "fastvpinns/hyperparameter_tuning/optuna_tuner.py:38-65", "examples/optuna_examples/main.py:35-365"]}
{"id": "C83", "title": "Figures show the data they claim to show", "statement": "The plotting functions save one image each, under output path/name.png, that shows exactly the given values at positions 0,1,2,... on a logarithmic axis (or the given matrix over the given coordinates), whatever has been drawn before, and leave the open figures as they were; contour plots need two rows and two columns, time plots arrays of equal lengths. Whenever a training script on the rectangle finishes, its images show the exact solution, after every reported epoch the network with the weights after that epoch and its absolute error, the losses of all epochs and the mean absolute errors of all reports; the inverse script in addition shows the final network and error and the value of eps after each epoch beside the exact value. The two scripts for a coefficient field on an internal mesh show the exact values, for every report the reported solution and coefficient and their absolute errors, the losses and the mean absolute errors; on a mesh file only the two curves. No other image is written. Mesh plots show the outline and quadrature points of every cell and the points of every boundary tag. Findings: mesh, sensor and residual plots leave their figure open, the sensor plot ignores the output folder, curves without label are dropped, the residual plot fails with matplotlib 3.8 and later.", "quantifier": "all arrays, matrices, names, configurations, initial weights, previous states of pyplot; with the attention layer the network is the one of C77", "why_tests_cant": "tests do not look at the contents of images, and state left over from earlier plots shows only in particular sequences of calls", "anchors": ["fastvpinns/utils/plot_utils.py:42-317", "fastvpinns/FE/fespace2d.py:251-343", "fastvpinns/Geometry/geometry_2d.py:499-564", "examples/forward_problems_2d/uniform_mesh/poisson_2d/utility.py:69-113", "examples/forward_problems_2d/uniform_mesh/poisson_2d/main_poisson2d.py:171-268", "examples/inverse_problems_2d/const_inverse_poisson2d/main_inverse.py:216-425", "examples/inverse_problems_2d/domain_inverse_cd2d/USA/main_inverse_domain_usa.py:213-228", "examples/inverse_problems_2d/domain_inverse_cd2d/USA/main_inverse_domain_usa.py:343-404", "examples/inverse_problems_2d/domain_inverse_cd2d/circle/main_inverse_domain_circle.py:347-408"]}
{"id": "C84", "title": "A small loss means a small defect of the differential equation", "statement": "Let the network be a function whose defect (left-hand side of the equation minus forcing function) is continuous on every cell. Each weak form is the integral of the defect against a test function. The reported PDE loss L bounds the defect on every cell: its weighted square is at most that of its distance from any polynomial of degree below the order N of the test space, plus a combination of N sqrt(L) + 8 delta whose coefficients depend on the polynomial and the test space only. A defect that is not zero is seen by some test function of the family, and then the loss has a positive lower bound for all larger orders. For polynomial networks and data with N large enough the loss is zero if and only if the equation holds in the interior of every cell.", "quantifier": "all meshes of strictly convex cells, all networks with a continuous defect, all accepted settings with test functions that vanish on the edges, all forward losses and both inverse models", "why_tests_cant": "That a loss near zero is evidence for a solution is the reason to train at all; it rests on the completeness of the test functions, which no sample of networks can show.", "anchors": ["fastvpinns/physics", "fastvpinns/model/model.py:DenseModel.train_step", "fastvpinns/model/model_hard.py", "fastvpinns/model/model_inverse.py", "fastvpinns/model/model_inverse_domain.py", "fastvpinns/FE/basis_2d_QN_Legendre.py", "fastvpinns/FE/basis_2d_QN_Jacobi.py"]}
{"id": "C85", "title": "Rounding changes the losses by a bounded amount only", "statement": "With unit roundoff eps, and whatever order and grouping the sums are evaluated in, every loss that a training step reports (PDE, boundary, sensor and total loss of all four models) differs from its value in exact arithmetic by at most ((1+eps)^k - 1) times the same loss with all terms replaced by their absolute values. The exponent k is explicit: it grows with the number of quadrature points, test functions, cells and data points only, not with their values. The computed PDE, boundary and sensor losses are never negative. The computation with rounding returns exactly if the exact one does. Two evaluations of the same step in different orders differ by at most twice the bound. Rounding to nearest with p bits is covered with eps = 2^-p. The computed loss plus the bound still bounds the defect of the differential equation as in C84.", "quantifier": "all unit roundoffs, all orders of summation, all data and networks, all sizes, all forward losses and both inverse models", "why_tests_cant": "The order in which TensorFlow adds up depends on device, shapes and threads; a test sees one order on one machine and cannot bound the others.", "anchors": ["fastvpinns/physics/poisson2d.py", "fastvpinns/physics/cd2d.py", "fastvpinns/physics/helmholtz2d.py", "fastvpinns/physics/poisson2d_inverse.py", "fastvpinns/physics/cd2d_inverse_domain.py", "fastvpinns/model/model.py:DenseModel.train_step", "fastvpinns/model/model_hard.py", "fastvpinns/model/model_inverse.py", "fastvpinns/model/model_inverse_domain.py"]}
{"id": "C86", "title": "Reported errors are accurate to a few digits less than the precision", "statement": "In floating-point arithmetic with unit roundoff eps < 1, whatever the order of summation, the six numbers of compute_errors_combined are the exact errors up to a factor between (1-eps)^k and (1-eps)^-k, with k = N+4 for the l2 error of N entries, 1 for the linf error, N+1 for the l1 error and 2N+7, 2, 2N+2 for the relative ones; that is a relative error of at most k eps/(1 - k eps). There is a result exactly if the exact computation returns and the exact solution is not zero everywhere. A computed error is zero exactly if the arrays are equal. For given values of the network the boundary and sensor losses have the relative accuracy of n+4 roundings for n points.", "quantifier": "all arrays, all orders of summation, all unit roundoffs below 1", "why_tests_cant": "numpy sums pairwise in blocks that depend on length and machine; a test sees one order, and comparing with a reference needs the bound that is proved here", "anchors": ["fastvpinns/utils/compute_utils.py:18-224", "fastvpinns/model/model.py:DenseModel.train_step", "fastvpinns/model/model_inverse.py", "fastvpinns/model/model_inverse_domain.py"]}
{"id": "C87", "title": "The loss does not depend on the numbering of the mesh", "statement": "List the same strictly convex cells in another order, start the vertex list of each cell at another of its vertices, and use the affine or the bilinear transformation, with the same test space, quadrature rule, boundary data and parameters. A training step of each of the four models returns the same losses, and so a whole training run from the same weights returns the same losses in every epoch and ends with the same weights.", "quantifier": "all meshes, numberings, test spaces, quadrature rules, constant-coefficient losses, networks that work point by point, weights, epochs", "why_tests_cant": "a mesh generator may number cells and vertices in factorially many ways; a test fixes one, and compares with stored numbers of that one", "anchors": ["fastvpinns/FE/fespace2d.py:36-200", "fastvpinns/FE/quad_bilinear.py", "fastvpinns/FE/quad_affine.py", "fastvpinns/FE/quadratureformulas_quad2d.py", "fastvpinns/model/model.py:DenseModel.train_step"]}
{"id": "C88", "title": "The loss does not depend on units, axes and origin", "statement": "Move the mesh, boundary points and sensors by a similarity of the plane (another unit of length, rotated or reflected axes, another origin) and write the equation, its forcing function and the network in the new coordinates. A training step of each of the four models returns the same losses: the discretisation has no preferred direction, position or length.", "quantifier": "all similarities, strictly convex cells, test spaces, quadrature rules, constant-coefficient losses, networks differentiable on the cells", "why_tests_cant": "a test has one domain in one position; a term with a swapped axis or a missing factor of the Jacobian can be right for axis-parallel unit cells only", "anchors": ["fastvpinns/FE/quad_bilinear.py", "fastvpinns/FE/quad_affine.py", "fastvpinns/FE/fespace2d.py:36-200", "fastvpinns/physics/cd2d.py", "fastvpinns/model/model.py:DenseModel.train_step"]}
{"id": "C89", "title": "Training adjusts exactly the weights of the network", "statement": "For layer widths d0,...,dn the trainable variables are the entries of kernels d_k x d_{k+1} and biases d_{k+1} and the unknown parameters, each once and nothing else. There is no hidden state: trainings of each of the four models from states that agree on the trainable variables (and their optimizer state) report the same losses in all epochs and end in states that agree on them. Each of the numbers has an effect: with an injective activation the output is an injective function of it for suitable values of the others.", "quantifier": "all architectures, loss functions, data, states, epochs", "why_tests_cant": "a layer left out of the trainable list, or trained with the wrong shape, still lets the loss fall; a test that sees it fall cannot tell", "anchors": ["fastvpinns/model/model.py:151-206", "fastvpinns/model/model.py:DenseModel.train_step", "fastvpinns/model/model_inverse.py:74-83", "fastvpinns/model/model_hard.py", "fastvpinns/model/model_inverse_domain.py"]}
{"id": "C90", "title": "A small loss means a small error of the solution", "statement": "For strictly convex cells and a test space that vanishes on the edges there is a constant C, depending only on the cells, the family and the order of the test space, such that for every equation -e Lap u + b.grad u + r u = f with e > 0 and r >= 0, every network function u with continuous defect and every classical solution v on the whole mesh: the distance of u and v is everywhere at most their distance B on the boundary of the mesh plus A C (sqrt(L) + delta + tau). L is the PDE loss of DenseModel, the loss of DenseModel_Hard or the PDE loss of DenseModel_Inverse; A is width^2/(2e), width/|b| or 1/r; delta is the distance of the integrands from polynomials the rule integrates exactly, tau that of the defect from polynomials of degree below the order. If the boundary values of the training are those of v, B is at most sqrt(n L_dirichlet) plus the variation of the error between training points; the same holds with the total loss when beta > 0.", "quantifier": "all meshes of strictly convex cells, test spaces, coefficients, forcing functions, solutions, networks", "why_tests_cant": "tests compare with a known solution at some points for some networks; that a reported loss bounds the error at every point for every network, including problems whose solution nobody knows, is a statement about all of them", "anchors": ["fastvpinns/model/model.py:DenseModel.train_step", "fastvpinns/model/model_hard.py", "fastvpinns/model/model_inverse.py", "fastvpinns/physics/poisson2d.py", "fastvpinns/physics/cd2d.py", "fastvpinns/physics/helmholtz2d.py"]}
{"id": "C91", "title": "A loss of zero can be reached, and by itself does not bound the error", "statement": "With tanh as activation, one hidden layer or more, hidden layers of at least two units and a last hidden layer of at least three units per training point, the network can take any values and any gradients at the training points. So for every function v there are weights for which a training step of each of the four models reports exactly the losses of v. If v is an exact solution that the rule handles and the boundary data agree with it, weights with loss zero exist (for other classical solutions, with loss at most 64 \u03b4\u00b2 per cell). The same losses are reported by weights for which the network has arbitrary values at finitely many other points of the mesh. So a loss of zero alone gives no bound for the error, and training started there changes nothing. A bound needs the further hypotheses of C90.", "quantifier": "for all meshes, spaces and data, all functions v and w, all finite sets of further points, all architectures that are large enough, all numbers of epochs", "why_tests_cant": "The claim is the existence of weights for every solution, and the existence of wrong networks with loss zero; a test trains one network and sees only the weights that the optimizer finds.", "anchors": ["fastvpinns/model/model.py:DenseModel.train_step", "fastvpinns/model/model_hard.py:DenseModel_Hard.train_step", "fastvpinns/model/model_inverse.py:DenseModel_Inverse.train_step", "fastvpinns/model/model_inverse_domain.py:DenseModel_Inverse_Domain.train_step"]}
{"id": "C92", "title": "The report of the Docker image; get_errors of the examples", "statement": "docker_initialise.py reports the first version of pyproject.toml, the first release in the output of nvcc, the first triple of cuDNN definitions and the first line of nvidia-smi, each in its own cell; it says that the GPU checks are passed exactly if nvcc printed something and nvidia-smi did not print 'Not found', so it also says so when nvidia-smi prints an error message and TensorFlow sees no GPU; it ends without an exception exactly if the logo converter and python3 can be started and the output of nvcc, if any, contains a release. get_errors of the example utilities never returns: it looks up three names that do not exist.", "quantifier": "all contents of the files, outputs of the programs and exceptions on starting them; all arrays given to get_errors", "why_tests_cant": "The outputs of external programs are arbitrary texts; a test sees the few that its machine produces, and the script is only run inside the image.", "anchors": ["docker_initialise.py:6-137", "examples/forward_problems_2d/uniform_mesh/poisson_2d/utility.py:9-66"]}
{"id": "C93", "title": "Infinities, NaN and overflow cannot hide in a finite loss", "statement": "In floating-point arithmetic with overflow, infinities and NaN: if the loss of a training step is a finite number, then all tensors, forcings, boundary and sensor values, network values and derivatives that the loss function looks at were finite, no intermediate result overflowed, and the loss has the accuracy of C85; a single NaN among them, an empty boundary, no sensors or no test functions make the loss NaN; finite inputs give a finite loss if the largest number is large enough. One NaN in either solution makes all six reported errors NaN; finite reported errors have the accuracy of C86, except that a relative L2 or L1 error is reported as zero when the norm of the exact solution overflows; the relative errors of the zero solution are NaN for a perfect prediction and infinite for any other.", "quantifier": "all inputs including infinities and NaN, sizes, orders of summation, unit roundoffs and overflow thresholds; all losses, models and arrays", "why_tests_cant": "Overflow and NaN depend on the magnitude of all inputs and on the order of the operations; tests run with well-scaled data.", "anchors": ["fastvpinns/model/model.py:DenseModel.train_step", "fastvpinns/model/model_hard.py:DenseModel_Hard.train_step", "fastvpinns/model/model_inverse.py:DenseModel_Inverse.train_step", "fastvpinns/model/model_inverse_domain.py:DenseModel_Inverse_Domain.train_step", "fastvpinns/physics", "fastvpinns/utils/compute_utils.py"]}
{"id": "C94", "title": "The compiled training step computes what its Python text says", "statement": "train_step is decorated with @tf.function. As long as no attribute of the model is assigned after its first step, any sequence of compiled steps (also with changing values of beta and of the equation parameters) returns the same losses, leaves the same weights and raises the same exceptions as the Python text would. After the first successful step with a signature, attributes assigned later (boundary values, forcing, loss function, sensor data, layers) are not used by steps with this signature, whatever happens in between. One graph is built per signature: changing a tensor builds no new graph, every new Python number for beta does.", "quantifier": "all texts, attributes, weights, sequences of calls and assignments; all four models", "why_tests_cant": "Which attributes a graph has seen depends on the history of all previous calls; a test sees single histories, and the wrong ones give plausible losses.", "anchors": ["fastvpinns/model/model.py:DenseModel.train_step", "fastvpinns/model/model_hard.py:DenseModel_Hard.train_step", "fastvpinns/model/model_inverse.py:DenseModel_Inverse.train_step", "fastvpinns/model/model_inverse_domain.py:DenseModel_Inverse_Domain.train_step"]}
{"id": "C95", "title": "What the losses of the inverse problem say about the unknown parameter", "statement": "In the inverse Poisson problem with a constant unknown diffusion parameter, the three losses that DenseModel_Inverse reports bound the error of the parameter: |1/e - 1/e0| times Q is at most the square roots of sensor and boundary loss (times the square roots of the numbers of points) plus a constant times the square root of the PDE loss, plus noise, sampling and resolution errors, at every sensor where the forcing function shows with the amount Q; for a forcing function of one sign with |f| >= m this amount is m R^2 / 4 at a sensor with distance R from the boundary. A loss of zero then means the true parameter and the true solution. Without forcing the losses carry no information: the PDE loss is proportional to the square of the parameter, so that zero is always the best parameter. With zero boundary and sensor values parameter and network can be scaled against each other without changing a loss of zero.", "quantifier": "all meshes of strictly convex cells, test spaces that vanish on the edges, networks with continuous defect, parameters, forcings, sensors, noise levels", "why_tests_cant": "A test compares the parameter after some training of one problem; whether a small loss implies an accurate parameter is a statement about all networks with small loss.", "anchors": ["fastvpinns/model/model_inverse.py:DenseModel_Inverse.train_step", "fastvpinns/physics/poisson2d_inverse.py:pde_loss_poisson_inverse"]}
{"id": "C96", "title": "What the losses of the inverse problem with a coefficient field say", "statement": "In the inverse convection-diffusion problem with an unknown diffusion field (second output of the network), the losses that DenseModel_Inverse_Domain reports bound the distance between the first output and the true solution for the coefficient that has been found, everywhere in the mesh, and they bound the misfit of that solution at the sensors: the coefficient explains the measurements up to the square root of the sensor loss (times the square root of the number of sensors), the boundary error and a constant times the square root of the PDE loss plus resolution errors. Where the gradient of the solution vanishes the coefficient is invisible: changing it at quadrature points with vanishing gradient changes none of the losses.", "quantifier": "all meshes of strictly convex cells, test spaces that vanish on the edges, networks whose second output is positive and differentiable in the mesh and whose first output has a continuous defect, constant convection, non-negative reaction, sensors and boundary points", "why_tests_cant": "A test compares one trained field with one known field; it cannot say how far any pair of outputs with small losses can be from a solution of the equation, and it cannot show that two different fields have the same losses for all meshes and data.", "anchors": ["fastvpinns/model/model_inverse_domain.py:DenseModel_Inverse_Domain.train_step", "fastvpinns/physics/cd2d_inverse_domain.py:pde_loss_cd2d_inverse_domain"]}
{"id": "C97", "title": "An error bound with explicit constants; refining the mesh", "statement": "For test functions of order N that vanish on the edges and cells of area at least m, the error of the network (distance to the classical solution, everywhere in the mesh) is at most the error on the boundary plus A ((N sqrt(L) + 8 d) / m + w): L is the reported PDE loss, A the stability factor of the domain, d the accuracy of the quadrature and w the amount by which the defect of the network varies on a cell. No constant is left open. On shape-regular meshes of size h, a PDE loss of at most h^6, quadrature accurate to h^3 and a Lipschitz continuous defect give an error that goes to zero like h. On internal meshes of nx times ny rectangles everything is explicit in the size of the rectangle, nx and ny. The same holds for both kinds of inverse problem, with the solution for the current parameter or coefficient field. For a forcing function of one sign the error of the unknown constant parameter is bounded explicitly by the three reported losses, too.", "quantifier": "all meshes of strictly convex cells, all families of test functions except jacobi_plain, all orders and quadrature rules that the library accepts, all networks with continuous defect, parameters, forcings and boundary data", "why_tests_cant": "A test observes errors on a few meshes for one network. It cannot bound the error for every network and mesh in terms of the reported loss, and it cannot establish a rate of convergence.", "anchors": ["fastvpinns/model/model.py:DenseModel.train_step", "fastvpinns/model/model_hard.py:DenseModel_Hard.train_step", "fastvpinns/physics/poisson2d.py:pde_loss_poisson", "fastvpinns/physics/cd2d.py:pde_loss_cd2d", "fastvpinns/Geometry/geometry_2d.py:Geometry_2D.generate_quad_mesh_internal"]}
{"id": "C98", "title": "The scripts for a coefficient field on the rectangle", "statement": "On an internal mesh the scripts main_inverse_domain_usa.py and main_inverse_domain_circle.py train solution and coefficient (outputs 0 and 1 of the network) with the loss, tensors, boundary data, sensors and learning rate assembled from the configuration, and everything they leave behind (weights, reports, tables, the eight text files, prediction and coefficient as matrices) belongs to this training; they finish exactly for valid configurations with at least two epochs, a readable learning rate and, for the second script, a CSV file with as many lines as test points. The errors of the second script are computed against the third column of the CSV file line by line, although neither the training nor the test points come from that file.", "quantifier": "all machines (libraries, clock, file system), problems, configurations with internal mesh (with the attention layer the network is the one of C77), random draws, initial weights and file systems", "why_tests_cant": "A run of the script exercises one configuration on one machine; it cannot show that the files written after an arbitrary number of epochs belong to the last state of the training, nor that the reference file never enters the training.", "anchors": ["examples/inverse_problems_2d/domain_inverse_cd2d/USA/main_inverse_domain_usa.py:40-479", "examples/inverse_problems_2d/domain_inverse_cd2d/circle/main_inverse_domain_circle.py:40-483"]}
{"id": "C99", "title": "The losses converge with the precision, also with underflow and inexact inputs", "statement": "If the unit roundoff, the absolute amount an operation can lose by underflow, and the errors in the stored tensors, the network values, their derivatives, the coefficient field and the data all tend to zero, every loss of a training step (PDE, boundary, sensor and total loss of all four models) tends to its exact value, whatever order the sums are evaluated in. Such evaluations exist exactly when the exact step returns. Rounding to nearest with flush-to-zero or with gradual underflow is covered. With a fixed precision this limit is not reached: errors whose squares underflow give a boundary or sensor loss of exactly zero.", "quantifier": "all tensors, row-wise networks, forward and inverse losses, parameters, tolerances; all evaluations with small enough roundoff, underflow threshold and input errors", "why_tests_cant": "Tests run in one precision with one evaluation order and compare with a tolerance chosen by hand; they cannot show that a smaller tolerance is met by a higher precision for all inputs.", "anchors": ["fastvpinns/model/model.py:259-307", "fastvpinns/model/model_hard.py:280-330", "fastvpinns/model/model_inverse.py:275-338", "fastvpinns/model/model_inverse_domain.py:265-342", "fastvpinns/physics/poisson2d.py", "fastvpinns/physics/cd2d.py", "fastvpinns/physics/helmholtz2d.py"]}
{"id": "C100", "title": "The tutorial notebooks train and report what they say, and their hand-written class and loss equal the library's", "statement": "In both notebooks of examples/notebooks, the right-hand side, the exact solution and the coefficient satisfy -div(eps grad u) = f (the text of the notebooks states the opposite sign, which is false for their own functions) and the boundary data on the unit square are the values of the exact solution. Whenever a notebook finishes, the curve shows the total losses of all epochs, the three contour plots show the exact solution, the network with the final weights and the absolute error at the tensor grid of test points, and the table has the six error measures of the final weights. The model class, learning rate and loss function written out in custom_training_poisson.ipynb give the same result or exception as those of the library for every setting. The notebooks finish exactly for valid settings on a rectangle that is not degenerate, in particular as shipped.", "quantifier": "all settings of the cells, problems, draws of boundary points, initial weights, file systems, and numbers of epochs", "why_tests_cant": "A notebook is run for one setting and one seed; a difference between the copied class and the library, a wrong label or the wrong sign shows only in numbers nobody compares, and no run covers all settings.", "anchors": ["examples/notebooks/poisson_training.ipynb (cells 4-26)", "examples/notebooks/custom_training_poisson.ipynb (cells 4-33)"]}
{"id": "C101", "title": "The gradients that train_step takes with its tapes are the derivatives of prediction and loss", "statement": "Reverse-mode accumulation through the operations that train_step records gives, in both tapes, the derivatives: the inner tape gives the derivatives of the predictions with respect to the coordinates, and the outer tape, which differentiates through the inner one, gives the derivatives of the loss with respect to every entry of every trainable variable, so that the step equals the step with exact derivatives, for all four models, with and without attention. This holds whenever no unit of the network sits at a point where its activation is not twice differentiable, hence for whole trainings with smooth activations such as tanh. For the ReLU the condition holds exactly where its argument is not zero; there is a ReLU network that is the function x for which the tape finds the gradient zero at the origin, and with the ReLU the Poisson loss gives no gradient to any bias.", "quantifier": "all networks, activations with registered derivatives, weights, mesh data, parameters, boundary and sensor data, learning rates, and numbers of epochs", "why_tests_cant": "Gradient checks compare finite differences at a few weights; nested tapes through a network of any depth and width, and the points where an activation has a kink, cannot be covered by samples.", "anchors": ["fastvpinns/model/model.py:250-305", "fastvpinns/model/model_hard.py:271-328", "fastvpinns/model/model_inverse.py:264-330", "fastvpinns/model/model_inverse_domain.py:253-335", "fastvpinns/physics/poisson2d.py", "fastvpinns/physics/poisson2d_inverse.py", "fastvpinns/physics/cd2d_inverse_domain.py"]}
{"id": "C102", "title": "Training in finite precision converges to the exact training", "statement": "As the accuracy of the arithmetic (roundings, underflow, elementary functions, stored constants and points, first weights) improves, the losses returned in every epoch of a training, the final weights, the optimizer's moments and the identified parameter tend to those of the training with exact derivatives and exact arithmetic, for all four models, for every order of summation and every rearrangement of the losses and gradients that is equal in exact arithmetic. This needs that no unit of the network sits at a jump of its activation or its derivatives in the exact training; with smooth activations such as tanh it holds without condition. In particular it holds for rounding to nearest with p digits and smallest exponent emin, with flushing to zero and with gradual underflow, as p grows and emin falls. For the ReLU the condition is needed: there is a training of one epoch where no accuracy suffices.", "quantifier": "all networks, activations, attention, mesh data, parameters, sensors, learning rates, numbers of epochs, first states, tolerances, orders of summation and rearranged programs", "why_tests_cant": "A test can compare float32 with float64 for one run; it cannot show that the deviation after any number of epochs vanishes in the limit for every summation order and kernel, nor that no accuracy suffices at a kink.", "anchors": ["fastvpinns/model/model.py:238-307", "fastvpinns/model/model_hard.py:259-330", "fastvpinns/model/model_inverse.py:253-338", "fastvpinns/model/model_inverse_domain.py:242-342", "fastvpinns/physics/poisson2d.py"]}
{"id": "C103", "title": "Training does not depend on the numbering of the hidden units; equal units stay equal", "statement": "Renumbering the units of the hidden layers, and changing the common sign of all entries of a unit whose activation is odd, changes neither the predictions nor any loss of a training: from the renumbered weights and optimizer state every epoch returns the same losses and the final state is the renumbered one, for all four models, with and without attention, and a training that fails does so with the same exception. Hence two hidden units with the same incoming and outgoing weights at the start stay equal for ever, and with odd activations such as tanh a unit with zero weights never learns.", "quantifier": "all networks, activations, renumberings and signs of the hidden units, data, loss functions, learning rates, states, numbers of epochs", "why_tests_cant": "Weights are drawn at random, so a test sees neither equal units nor two trainings that differ by a renumbering; the number of renumberings grows with the factorial of the width.", "anchors": ["fastvpinns/model/model.py:187-206", "fastvpinns/model/model.py:303-305", "fastvpinns/model/model_hard.py:208-228", "fastvpinns/model/model_inverse.py:196-216", "fastvpinns/model/model_inverse_domain.py:190-209"]}
{"id": "C104", "title": "The accuracy tests decide exactly whether the mean errors are below the tolerance", "statement": "In the accuracy tests of the forward problems the exact solutions solve the differential equations with the right-hand sides and coefficients given and have the boundary values given (for the tests on the square, on all four sides). A test ends by passing or with an AssertionError, never with another exception, for the settings of the tests; it passes exactly if, after the given number of steps of the training assembled from its settings, the mean square difference of the trained network (times the factor vanishing on the boundary, with hard constraints) and the exact solution over the test points is below the square of the tolerance. The second condition, on the mean absolute difference, never decides, and the condition on the learning rate holds for every number of steps from 1000 on. In the tests with an unknown constant the exact solution solves the equation for the value 0.3 of the unknown only, the value that the trained unknown is compared with, whatever the value of eps among the other parameters; they pass exactly if in addition (on the mesh file: with the mean absolute difference instead) the trained unknown is within its tolerance of 0.3. The test with an unknown coefficient function passes exactly if the mean absolute differences of the two outputs of the trained network from the third column of the file with the sensor data, line by line and vertex by vertex, and from the actual coefficient are below the tolerance; the exact solution in this test has no influence.", "quantifier": "all numbers of cells and epochs, supported test functions, quadratures, precisions, activations, draws of boundary points and sensors, files with sensor data, initial weights, tolerances", "why_tests_cant": "The tests themselves are the object: each of them trains one network from one random start, and nothing checks that its exact solution fits its right-hand side or that its assertions are independent.", "anchors": ["tests/integration/test_accuracy_poisson.py:111-203", "tests/integration/test_accuracy_poisson.py:304-399", "tests/integration/test_accuracy_poisson.py:424-520", "tests/integration/test_accuracy_poisson_hard.py:78-186", "tests/integration/test_accuracy_cd2d.py:123-302", "tests/integration/test_accuracy_helmholtz.py:126-305", "tests/integration/test_accuracy_inverse_const.py:145-254", "tests/integration/test_accuracy_inverse_const.py:257-370", "tests/integration/test_accuracy_cd2d_inverse_domain.py:82-211"]}
{"id": "C105", "title": "TensorFlow's broadcasting never hides a wrong number of cells", "statement": "With TensorFlow's own rules for shapes (broadcasting, -1 in a reshape) a training step on the tensors of one finite element space behaves as intended for every value of n_cells: for the number of cells of the mesh, and for -1, it returns the losses of the intended shapes; every other value is a ValueError. For tensors put together by hand, a step that returns with several cells, test functions, points and boundary values has shapes that agree; only where a dimension is 1 are wrong shapes accepted silently, in particular boundary values that are not a column.", "quantifier": "all meshes, settings, networks, values of n_cells, parameters; for the second part all shapes of all tensors", "why_tests_cant": "Broadcasting turns shape mistakes into numbers instead of exceptions; a test on one mesh with one value of n_cells sees neither the silent cases nor that they cannot occur.", "anchors": ["fastvpinns/model/model.py:265-300", "fastvpinns/model/model_hard.py:283-310", "fastvpinns/model/model_inverse.py:274-325", "fastvpinns/model/model_inverse_domain.py:254-335", "fastvpinns/physics/poisson2d.py:28-44", "fastvpinns/physics/cd2d.py:55-82", "fastvpinns/data/datahandler2d.py:101-109"]}
{"id": "C106", "title": "The output layer is a least-squares problem", "statement": "With fixed hidden layers the reported loss is a convex polynomial of degree two in the kernel and bias of the output layer, for all four models (for DenseModel_Hard with a constraint that is affine in the network, for the inverse models with fixed parameter or coefficient; also in the parameter, or in the column of the coefficient, with the rest fixed). So when training has made the gradient zero in the entries of the output layer, no other output layer on the same hidden layers has a smaller loss; and averaging the predictions of two networks never gives more than the average of their losses. Parameter and output layer together are not convex.", "quantifier": "all architectures, twice continuously differentiable activations, weights, model data of matching shape, coefficients, beta >= 0, sensors", "why_tests_cant": "A test compares the loss with finitely many other weights; that none of the infinitely many output layers is better needs the structure of the loss as a function of the weights.", "anchors": ["fastvpinns/model/model.py:237-307", "fastvpinns/model/model_hard.py:258-330", "fastvpinns/model/model_inverse.py:252-338", "fastvpinns/model/model_inverse_domain.py:241-342", "fastvpinns/physics/poisson2d.py:28-44", "fastvpinns/physics/cd2d.py:55-82"]}
{"id": "C107", "title": "Where training settles, the gradient is zero", "statement": "If a training without end with a constant learning rate other than zero has converging weights, whatever the starting weights and optimizer state, then for all four models the reported losses converge to the loss at the limit, the derivative of the reported loss in every trainable variable is zero there, and with beta >= 0 no other output layer (for the inverse models also: no other parameter, or column of the coefficient) on the same hidden layers has a smaller loss. With the learning-rate schedule on (decay rate at least zero and below one) this fails for every schedule: there is a problem whose training converges to weights that are not stationary although loss zero is attainable.", "quantifier": "all architectures, twice continuously differentiable activations, starting states, rates other than zero, model data of matching shape, coefficients, sensors; for the negative part all schedules with decay rate below one", "why_tests_cant": "Convergence is a statement about infinitely many optimizer steps; a test sees finitely many and cannot tell a stationary point from steps that have become small.", "anchors": ["fastvpinns/model/model.py:130-144", "fastvpinns/model/model.py:237-307", "fastvpinns/model/model_hard.py:258-330", "fastvpinns/model/model_inverse.py:252-338", "fastvpinns/model/model_inverse_domain.py:241-342"]}
{"id": "C108", "title": "A larger beta trades PDE residual for boundary error", "statement": "Among any set of candidates (networks of any kind; for the inverse model networks with parameters) let two be the best ones for beta = b1 < b2, or best up to given tolerances. Then the boundary loss reported for the larger beta is not the larger one and, for b1 >= 0, the rest of its loss (PDE loss; for the inverse models PDE loss plus ten times the sensor loss) is not the smaller one, up to the tolerances. For beta > 0 the boundary loss of the best network exceeds that of any other by at most the PDE loss of the latter divided by beta. With fixed hidden layers the same holds for output layers at which the gradient vanishes.", "quantifier": "all sets of networks, all loss functions (shipped or written by the user), model data, tolerances, pairs of beta", "why_tests_cant": "It compares the best of infinitely many networks for infinitely many values of beta; a test trains a few networks that need not be the best.", "anchors": ["fastvpinns/model/model.py:289-307", "fastvpinns/model/model_inverse.py:296-338", "fastvpinns/model/model_inverse_domain.py:312-342"]}
{"id": "C109", "title": "A larger fe_order keeps every test of a smaller one", "statement": "Two finite element spaces built with the same arguments except for fe_order, n <= m, have the same boundary data, cells and quadrature points, and in every cell the residual of any function tested with the products of the first n by n test functions is the same number in both. So a training step of the same network succeeds for both or for neither, the boundary and sensor losses are equal, the PDE loss (and for beta >= 0 the total loss) satisfies n^2 loss_n <= m^2 loss_m, and a network whose loss is zero for m has loss zero for every smaller n: raising fe_order never hides a residual that was visible before.", "quantifier": "all meshes (also with non-convex cells), fe types, quadrature rules and transformations that the constructor accepts, all pairs of orders, networks, loss functions of the forward, inverse and domain models, boundary and sensor data", "why_tests_cant": "It compares two whole assemblies for all meshes and all networks; a test compares the loss of a few networks on one mesh, where another numbering of the products or test functions that depend on the order would give losses of the same size.", "anchors": ["fastvpinns/FE/basis_2d_QN_Legendre.py:Basis2DQNLegendre", "fastvpinns/FE/basis_2d_QN_Jacobi.py:Basis2DQNJacobi", "fastvpinns/FE/FE2D_Cell.py:FE2D_Cell", "fastvpinns/FE/fespace2d.py:Fespace2D", "fastvpinns/model/model.py:238-307"]}
{"id": "C110", "title": "Small errors in the data change the loss little, and the best network is nearly best", "statement": "Let two problems on the same mesh with the same settings differ in their data: the forcing functions by at most e at the quadrature points, the boundary functions by at most d at the boundary points, the sensor values by at most s. Then every network (with its parameters) gets a loss in both or in neither, and the square roots of the two losses differ by at most sqrt(N (K e)^2 + beta d^2 + 10 s^2), where N is the number of cells and K a bound of the sums of the absolute values of the weighted test functions of a cell. So a network with loss zero for exact data has a loss of at most the square of this bound for noisy data, and the best network for noisy data has, for exact data, a loss whose square root exceeds that of every other network by at most twice the bound.", "quantifier": "all meshes, spaces, forcing and boundary functions, sensor data, networks that act row by row, beta >= 0, all loss functions of the forward models and those of both inverse models", "why_tests_cant": "It bounds the effect of every perturbation of the data on the losses of all networks; a test tries a few perturbations of one problem.", "anchors": ["fastvpinns/FE/fespace2d.py:Fespace2D", "fastvpinns/data/datahandler2d.py:DataHandler2D", "fastvpinns/model/model.py:238-307", "fastvpinns/model/model_inverse.py:train_step", "fastvpinns/model/model_inverse_domain.py:train_step"]}
{"id": "C111", "title": "With finer quadrature the losses tend to those with exact integrals, for all bounded weights at once", "statement": "If the integrands of the weak form of a network are within delta of polynomials for which the quadrature rule is exact, the square root of the reported loss differs by at most 8 delta sqrt(N) from that of the loss with exact integrals over the N cells; so two rules, or the affine and the bilinear transformation of parallelograms, give losses whose square roots differ by at most 16 delta sqrt(N), and equal losses where both rules are exact. For every bounded set of weights (and unknown parameters) and every eps > 0 there is one degree such that all rules exact to this degree give, for every network with these weights, a loss whose square root is within eps of that with exact integrals; the best weights of the set for the reported loss are then best for the loss with exact integrals up to 2 eps.", "quantifier": "all meshes of convex cells, all types and orders of test functions, all accepted rules and transformations, all continuous forcing functions, networks with a twice continuously differentiable activation, all bounds of the weights, beta >= 0, the forward losses and those of both inverse models", "why_tests_cant": "It compares a sum over points with integrals for all weights of a bounded set at once; a test compares two rules for one network.", "anchors": ["fastvpinns/FE/quadratureformulas_quad2d.py:Quadratureformulas_Quad2D", "fastvpinns/FE/fespace2d.py:Fespace2D", "fastvpinns/model/model.py:238-307", "fastvpinns/model/model_hard.py:train_step", "fastvpinns/model/model_inverse.py:train_step", "fastvpinns/model/model_inverse_domain.py:train_step"]}
{"id": "C112", "title": "Diverging trials neither end a hyper-parameter study nor win it", "statement": "Let the trials of a study return any floating-point numbers. A trial whose training diverges, so that its network predicts NaN at a test point, is stored as failed and the study goes on. If OptunaTuner.run returns parameters, all n_trials trials have been run and the parameters belong to a trial whose value is not NaN and is the least of all values in the storage; an infinite value wins only if no trial has a finite one. An exception occurs only if there is no GPU, if a trial raises it, or if no trial at all has a value (then it is a ValueError). If all values are numbers the study is that of C82.", "quantifier": "all numbers of GPUs, workers, trials and epochs, all schedules of the workers, all points suggested by the sampler, all earlier trials in the storage, all predictions", "why_tests_cant": "It ranges over all schedules of concurrent trials and all combinations of diverging trials.", "anchors": ["fastvpinns/hyperparameter_tuning/optuna_tuner.py:OptunaTuner", "fastvpinns/hyperparameter_tuning/objective.py:objective", "fastvpinns/utils/compute_utils.py:compute_errors_combined"]}
{"id": "C113", "title": "The reported errors with underflow", "statement": "When operations also lose small results by underflow, the six numbers returned by compute_errors_combined keep their relative accuracy up to an absolute amount that is known: the smallest loss eta for the largest error, three times eta for the mean error, and about the square root of three eta for the root-mean-square error, because its squares underflow first. Relative errors lose these amounts divided by the norm of the exact solution, provided that norm itself is not lost. Equal arrays are always reported with error exactly zero. The converse fails: differences whose squares underflow are reported with root-mean-square error exactly zero, and an exact solution whose squares underflow makes the relative error divide by zero.", "quantifier": "for all arrays (of equal length, or broadcast), all unit roundoffs below one, all absolute losses eta >= 0, every order and grouping of the sums, and every arithmetic that keeps signs; in particular for rounding to nearest with p digits with flush to zero or gradual underflow, for all p and all smallest normal numbers", "why_tests_cant": "Tests compare errors of normal size. Whether tiny errors are reported correctly depends on the exponent range, the order of the sums and the hardware mode for subnormal numbers, which a test run fixes.", "anchors": ["fastvpinns/utils/compute_utils.py:18-42", "fastvpinns/utils/compute_utils.py:45-68", "fastvpinns/utils/compute_utils.py:71-95", "fastvpinns/utils/compute_utils.py:98-124", "fastvpinns/utils/compute_utils.py:127-153", "fastvpinns/utils/compute_utils.py:156-182", "fastvpinns/utils/compute_utils.py:185-224"]}
{"id": "C114", "title": "The unit tests hold for all their parameters", "statement": "What the unit tests of areas, boundary data, accessors and tensor shapes assert for a few sampled parameters holds for all of them: the weights of an internal mesh add up to the area of the rectangle, constant boundary functions give data with that mean exactly when at least four boundary points are asked for, accessors return for every cell number in range and each of them raises ValueError outside, forcing vectors and tensors have the asserted shapes, and the number of test points is the product of the two numbers. On a mesh file the area test with the bilinear map decides whether the area of the cells is close to the expected one; with the affine map it uses the parallelograms at the first vertex instead and may fail on a mesh on which the bilinear one passes. A pytest.raises block is decided by its first call that raises, so that four of the five range checks in the test of cell numbers are not tested by it.", "quantifier": "for all rectangles, all positive numbers of cells, all numbers of boundary and test points, all outcomes of the samplers, all orders, test spaces, quadrature types and transformations that Fespace2D accepts, all constants, boundary and forcing functions, and all meshes of convex cells", "why_tests_cant": "These are the tests: each run checks a handful of literals and random draws, and calls after the first exception in a pytest.raises block are never made.", "anchors": ["tests/unit/FE_2D/test_quadrature.py:16-144", "tests/unit/FE_2D/test_fespace2d.py:191-410", "tests/unit/Geometry/test_dirichlet_boundary.py:14-53", "tests/unit/Geometry/test_numtest.py:14-71", "tests/unit/data/test_data_functions.py:95-290", "fastvpinns/FE/fespace2d.py:97-183"]}
{"id": "C115", "title": "Affine and bilinear maps agree exactly on parallelograms", "statement": "If all cells are parallelograms that are not degenerate, the spaces with fe_transformation_type 'affine' and 'bilinear' are accepted or rejected alike, report the same values, gradients, points and weights, and give data handlers with the same tensors and boundary data. So on every internal mesh the choice changes nothing: scripts and tests prepare the same model, and the accuracy test gives the same result for both values of its parameter. On a cell that is not a parallelogram the two always report different quadrature points.", "quantifier": "for all meshes, boundary dictionaries, orders, test spaces, quadrature rules, forcing and boundary functions; for all rectangles, numbers of cells, draws of boundary points, initial weights and numbers of epochs", "why_tests_cant": "test_accuracy_poisson.py trains once for each of the two values on one 8 x 8 mesh, with different random weights, and compares both with a tolerance; it cannot show that the two runs are the same function of their random inputs, nor that the maps differ on every other cell.", "anchors": ["tests/integration/test_accuracy_poisson.py:111-203", "fastvpinns/FE/quad_affine.py:1-174", "fastvpinns/FE/quad_bilinear.py:1-160", "fastvpinns/FE/fespace2d.py:97-249", "fastvpinns/data/datahandler2d.py:45-129"]}
{"id": "C116", "title": "Cells that are not convex are accepted; when the weights show it", "statement": "Fespace2D accepts quadrilaterals of any shape. With the bilinear map the weights of a cell are never negative and add up to at least its area, to exactly the area if it is convex in either orientation. With gauss-jacobi points they add up to the area exactly if the cell is convex, so that the sum of all weights equals the sum of the areas exactly if every cell of the mesh is convex. With gauss-legendre points this check is blind: for every order there is a cell with a re-entrant corner whose weights are all positive and add up to its area.", "quantifier": "for all meshes and cells, all orders, test spaces and functions that Fespace2D accepts, and all quadrature orders", "why_tests_cant": "test_quadrature.py compares the sum of the weights with the area on two meshes with convex cells; that the comparison detects every cell that folds with one rule, and cannot with the other, is a statement about all cells and orders.", "anchors": ["fastvpinns/FE/quad_bilinear.py:85-101", "fastvpinns/FE/FE2D_Cell.py:137-230", "fastvpinns/FE/fespace2d.py:185-249", "fastvpinns/FE/fespace2d.py:530-551", "tests/unit/FE_2D/test_quadrature.py:16-144"]}
{"id": "C117", "title": "The names legendre, jacobi and legendre_special mean one test space, chebyshev_2 an equivalent one", "statement": "Spaces with fe_type legendre, jacobi or legendre_special and otherwise equal arguments are accepted or rejected alike and differ in nothing but the stored settings, so that all scripts, notebooks, accuracy tests and the test of the installation give the same results for the three names. For chebyshev_2 the tests are invertible combinations of the others: for every order there is a factor, independent of mesh, quadrature rule, equation, boundary data and network, such that the PDE losses and the total losses of a training step with two of these families are within that factor of each other and vanish together, while boundary and sensor losses are equal.", "quantifier": "for all meshes, boundary data, forcing functions, quadrature rules, transformations, orders, networks, machines and configurations; the factor is chosen before all of them except the order and the two names", "why_tests_cant": "test_accuracy_poisson.py:206 trains one problem on one mesh with three of the names and compares the errors with a tolerance; that two of the three tests are the same computation and that the third minimises an equivalent loss for every problem is a statement about all inputs.", "anchors": ["fastvpinns/FE/fe2d_setup_main.py:38-79", "fastvpinns/FE/basis_2d_QN_Legendre.py", "fastvpinns/FE/basis_2d_QN_Legendre_Special.py", "fastvpinns/FE/basis_2d_QN_Chebyshev_2.py", "fastvpinns/FE/fespace2d.py:185-249", "fastvpinns/data/datahandler2d.py:75-110", "tests/integration/test_accuracy_poisson.py:206-300"]}
{"id": "C118", "title": "The test of the installation passes exactly for valid settings and says nothing about the numbers", "statement": "The test that builds and trains the convection-diffusion problem in tests/compatibility passes, with its literals, on every machine that can read the mesh it has generated, for all draws and initial weights. With other settings and problems it passes exactly if names, orders, sizes and keys are valid; the outcome is the same for every right-hand side, exact solution, boundary values, coefficients, activation functions and quadrature routines.", "quantifier": "for all machines, draws, initial weights and contents of the file system; for the equivalence for all configurations with an internal mesh and at least one epoch and all problems with a forward loss", "why_tests_cant": "It is itself a test: one run shows that one draw of the boundary points and of the weights raises no exception, and its last line is assert True. That no draw can make it fail, and which wrong programs it lets through, are statements about all runs.", "anchors": ["tests/compatibility/test_imports_and_build.py:67-214", "fastvpinns/model/model.py:60"]}
{"id": "C119", "title": "The boundary loss approximates the mean of the side means, whatever the draw", "statement": "On a rectangle with at least four boundary points, in a training step of each of the three models with a boundary loss, that loss is within the oscillation of the squared error over one stratum of the mean of the mean square boundary errors of the four sides, for every outcome of the Latin hypercube sampling. For every draw it bounds the error at every boundary point, not only at the drawn ones, by the root of loss times number of points plus the oscillation of the error over one stratum. For a continuous network and continuous boundary functions it converges to that mean as the number of boundary points grows. For the dense model the limit is the mean over the whole boundary exactly if the rectangle is a square or the errors on horizontal and vertical sides have the same mean.", "quantifier": "for all rectangles, numbers of boundary points, draws, networks, boundary functions, loss functions and weights beta", "why_tests_cant": "The boundary points are random: a test sees one draw. That no draw misleads, and how the loss relates to the error on the continuum of boundary points, are statements about all draws and about integrals.", "anchors": ["fastvpinns/Geometry/geometry_2d.py:294-337", "fastvpinns/model/model.py:237-307", "fastvpinns/model/model_inverse.py:252-338"]}
{"id": "C120", "title": "The drawn boundary points are dense enough: an error bound for every draw", "statement": "On a rectangle with at least four boundary points the assumption on the boundary points in the error bounds C90, C95, C96 and C97 holds for every outcome of the Latin hypercube sampling: the boundary data hold the values of the boundary functions, and the error at each boundary point of the domain is close to the error at a drawn point on the same side. Hence, for every draw, the distance of network and classical solution is everywhere at most K max(W,H)/(nb/4) plus the root of boundary loss times number of drawn points, plus the explicit interior term of C97, where K is a Lipschitz constant of the error on the boundary, W x H the size of the rectangle and nb the number of boundary points asked for. In the inverse Poisson problem the losses that DenseModel_Inverse reports bound the error of the unknown parameter in the same way, for every draw. The error bound also holds for DenseModel_Inverse_Domain and the solution for the coefficient field found. With enough boundary points, small enough cells and accurate enough quadrature, explicit thresholds on the two reported losses guarantee, for every draw, a prescribed accuracy of DenseModel on the whole domain.", "quantifier": "for all rectangles, numbers of cells and boundary points, draws, problems with constant coefficients or a coefficient field, classical solutions, networks, sensors and weights beta", "why_tests_cant": "A test sees one draw and compares at finitely many points; the bound holds for every draw and at every point of the domain.", "anchors": ["fastvpinns/Geometry/geometry_2d.py:294-337", "fastvpinns/FE/fespace2d.py:344-372", "fastvpinns/model/model.py:237-307"]}
