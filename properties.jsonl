{"id": "C01", "title": "Box traversal is exact", "statement": "iterate(box, kernel) calls the kernel once on every integer point p with lower_left <= p < upper_right componentwise, on no other point, in the order where the first coordinate runs fastest; if any side is empty the kernel is never called.", "quantifier": "every dimension, every integer box (including empty and negative ones)", "why_tests_cant": "boxes are unbounded in size and position; a test visits finitely many", "anchors": ["cafes/algorithm/iterate.hpp:iterate", "cafes/algorithm/iterate.hpp:iterate_impl"]}
{"id": "C02", "title": "Element boxes of the processes partition the mesh", "statement": "With the final-point removal of get_DM_bounds, the element boxes owned by the processes are pairwise disjoint and their union is exactly the global set of elements (N-1 per non periodic direction, N per periodic direction).", "quantifier": "every dimension, every mesh size, every process grid and ownership split, every choice of periodic directions", "why_tests_cant": "depends on the parallel layout chosen at run time by PETSc", "anchors": ["cafes/fem/mesh.hpp:get_DM_bounds_"]}
{"id": "C03", "title": "Velocity and pressure grids are nested on every process", "statement": "For any pressure ownership split, the velocity split computed by createMesh sums to the velocity grid size, and every process's velocity block starts exactly at twice its pressure start, so that pressure cell i of a process refines into its own velocity cells 2i, 2i+1.", "quantifier": "every number of points, every ownership split, periodic or not", "why_tests_cant": "any number of processes and any split", "anchors": ["cafes/fem/mesh.hpp:createMesh", "cafes/fem/mesh.hpp:set_lxu", "cafes/fem/mesh.hpp:createDMDA"]}
{"id": "C04", "title": "Element kernels stay inside the ghosted patch", "statement": "Every velocity node (9 in 2D, 27 in 3D) and pressure node that an element kernel reads or writes for an element owned by a process lies in that process's ghosted window (owned block plus one layer), and the local index used for assembly is inside the local array and is injective on it.", "quantifier": "every layout produced by createMesh, every owned element", "why_tests_cant": "out of bounds accesses may go unnoticed in any given run", "anchors": ["cafes/fem/quadrature.hpp:get_element", "cafes/fem/quadrature.hpp:get_element_4Q1", "cafes/fem/quadrature.hpp:DMDALocalIndex2D", "cafes/fem/mesh.hpp:createDMDA"]}
{"id": "C05", "title": "Local sizes add up to the global size", "statement": "The sum over processes of the local size reported by get_DM_sizes equals the total size it reports on each process.", "quantifier": "every layout, every number of fields and dofs", "why_tests_cant": "any number of processes", "anchors": ["cafes/fem/mesh.hpp:get_DM_sizes"]}
{"id": "C06", "title": "P1 integration weights are a partition of unity interpolating the corners", "statement": "The weights returned by P1_integration sum to one for every point, are non negative for points of the cell, and equal 1 at their own corner and 0 at the other corners, the corner numbering being that of get_element.", "quantifier": "every point and every positive mesh step, 2D and 3D", "why_tests_cant": "continuum of points", "anchors": ["cafes/fem/quadrature.hpp:P1_integration", "cafes/fem/quadrature.hpp:get_element"]}
{"id": "C07", "title": "P1 gradients are the derivatives of the P1 weights", "statement": "P1_integration_grad returns, for every weight of P1_integration, the product of the mesh steps h0*h1(*h2) times its partial derivatives, and the returned gradients of all the weights sum to zero.", "quantifier": "every point and every non zero mesh step, 2D and 3D", "why_tests_cant": "continuum of points", "anchors": ["cafes/fem/quadrature.hpp:P1_integration_grad"]}
{"id": "C08", "title": "Interpolation at a surface point is exact on affine fields", "statement": "Interpolating nodal values with the P1 weights at any point of the plane/space reproduces every affine field exactly; with values bounded in a range, the interpolated value at a point of the cell stays in that range.", "quantifier": "every affine field, point, mesh step", "why_tests_cant": "continuum of inputs", "anchors": ["cafes/fem/quadrature.hpp:P1_integration", "cafes/problem/particle_operator.hpp:interp_fluid_to_surf"]}
{"id": "C09", "title": "Element node lists", "statement": "get_element(i) lists the 4 (8) distinct corners of cell i; get_element_4Q1(i) lists the 9 (27) distinct velocity nodes of pressure cell i; two cells with different index have different lists, and every corner of pressure cell i is, doubled, one of the 4Q1 nodes.", "quantifier": "every integer cell index", "why_tests_cant": "unbounded index range", "anchors": ["cafes/fem/quadrature.hpp:get_element", "cafes/fem/quadrature.hpp:get_element_4Q1"]}
{"id": "C10", "title": "Laplacian element matrix is the exact integral", "statement": "getMatElemLaplacian(h) is entry by entry the integral over the cell of size h of grad(phi_i).grad(phi_j) for the bilinear/trilinear basis.", "quantifier": "every positive h, 2D and 3D, every pair of local nodes", "why_tests_cant": "continuum of mesh steps", "anchors": ["cafes/fem/matElem.hpp:getMatElemLaplacian"]}
{"id": "C11", "title": "Mass element matrix is the exact integral", "statement": "getMatElemMass(h) is entry by entry the integral over the cell of phi_i*phi_j.", "quantifier": "every positive h, 2D and 3D", "why_tests_cant": "continuum of mesh steps", "anchors": ["cafes/fem/matElem.hpp:getMatElemMass"]}
{"id": "C12", "title": "Strain tensor element matrix is the exact integral", "statement": "getMatElemStrainTensor(h)[i][j][a][b] is the integral over the cell of 2 D(phi_j e_b) : D(phi_i e_a), D the symmetric gradient (for a fixed pairing convention of the indices).", "quantifier": "every positive h, 2D and 3D", "why_tests_cant": "continuum of mesh steps", "anchors": ["cafes/fem/matElem.hpp:getMatElemStrainTensor"]}
{"id": "C13", "title": "Pressure/velocity element matrix is the exact integral", "statement": "getMatElemPressure(h) is entry by entry the integral over the pressure cell [0,2h] of psi_i * d_a(phi_j), with psi the Q1 pressure basis of the cell and phi the Q1 velocity basis on the twice finer grid.", "quantifier": "every positive h, 2D and 3D", "why_tests_cant": "continuum of mesh steps", "anchors": ["cafes/fem/matElem.hpp:getMatElemPressure"]}
{"id": "C14", "title": "Element matrices are symmetric and positive", "statement": "The Laplacian, mass and strain tensor element matrices are symmetric; x^T M x >= 0 for every x; constants (rigid motions for the strain tensor) are in the kernel of the stiffness matrices; the mass matrix is positive definite.", "quantifier": "every h > 0, every vector of nodal values", "why_tests_cant": "quantifies over all vectors", "anchors": ["cafes/fem/matElem.hpp"]}
{"id": "C15", "title": "Matrix-free diffusion and mass operators are symmetric and positive", "statement": "laplacian_mult, mass_mult and strain_tensor_mult define linear maps that are symmetric for the Euclidean product of nodal vectors and positive semi definite, on any mesh.", "quantifier": "every mesh box, every field, every mesh step", "why_tests_cant": "all vectors, all sizes", "anchors": ["cafes/fem/operator.hpp:kernel_diag_block", "cafes/fem/operator.hpp:kernel_tensor_block"]}
{"id": "C16", "title": "Diffusion annihilates constants (rigid motions)", "statement": "laplacian_mult applied to a constant field is zero everywhere (any mesh); strain_tensor_mult applied to any rigid motion is zero everywhere on meshes without periodic direction.", "quantifier": "every mesh, every constant / rigid motion (rigid motions are not periodic fields)", "why_tests_cant": "all sizes, all motions", "anchors": ["cafes/fem/operator.hpp:laplacian_mult", "cafes/fem/operator.hpp:strain_tensor_mult"]}
{"id": "C17", "title": "Mass operator measures the domain", "statement": "The sum of all the entries of mass_mult applied to the constant field 1 is the area/volume of the mesh.", "quantifier": "every mesh, every mesh step", "why_tests_cant": "all sizes", "anchors": ["cafes/fem/operator.hpp:mass_mult"]}
{"id": "C18", "title": "Pressure gradient is minus the adjoint of the divergence", "statement": "For every velocity u and pressure p, the velocity output of B_and_BT_mult tested with u is the opposite of its pressure output tested with p; hence the matrix-free Stokes operator satisfies <A(u,p),(u,p)> = <K u,u>.", "quantifier": "every mesh, velocity, pressure, mesh step, decomposition", "why_tests_cant": "all vectors", "anchors": ["cafes/fem/operator.hpp:kernel_off_diag_block", "cafes/fem/matrixFree.hpp:stokes_matrix"]}
{"id": "C19", "title": "Constant pressures exert no force inside the fluid", "statement": "The velocity output of B_and_BT_mult for a constant pressure vanishes at every velocity node that is not on the boundary of the mesh (so constants are the pressure null space once Dirichlet rows are imposed).", "quantifier": "every mesh, constant", "why_tests_cant": "all sizes", "anchors": ["cafes/fem/operator.hpp:B_and_BT_mult", "cafes/problem/stokes.hpp:CreatePressureNullSpace"]}
{"id": "C20", "title": "Discrete divergence is conservative", "statement": "The pressure output of B_and_BT_mult for a constant velocity is zero at every interior pressure node and the sum over all the pressure nodes of the output depends only on the boundary values of the velocity.", "quantifier": "every mesh, velocity", "why_tests_cant": "all sizes", "anchors": ["cafes/fem/operator.hpp:B_and_BT_mult"]}
{"id": "C21", "title": "Operators do not depend on the domain decomposition", "statement": "Summing the local contributions of the processes (local-to-global ADD) gives the same nodal vector as the one process computation, for every matrix-free operator.", "quantifier": "every split of the mesh in boxes, every field", "why_tests_cant": "every number of processes", "anchors": ["cafes/fem/operator.hpp", "cafes/petsc/vec.hpp:local_to_global", "cafes/fem/mesh.hpp:get_DM_bounds"]}
{"id": "C22", "title": "Assembled and matrix-free operators agree", "statement": "laplacian_assembling, mass_assembling and B_BT_assembling build the matrices of the corresponding matrix-free operators.", "quantifier": "every mesh, every field", "why_tests_cant": "all sizes and vectors", "anchors": ["cafes/fem/assembling.hpp", "cafes/fem/operator.hpp", "cafes/fem/matElem.hpp:getMatElemLaplacianA", "cafes/fem/matElem.hpp:getMatElemPressureA"]}
{"id": "C23", "title": "Assembled strain tensor agrees with the matrix-free one", "statement": "strain_tensor_assembling completes without error and adds to the matrix, for every mesh, decomposition and field: in the rows of the second velocity component exactly the rows of strain_tensor_mult, in the rows of the first component the same plus the contribution of the antisymmetric part of the element table of the mixed derivatives, and nothing in the pressure rows; that extra contribution vanishes at interior nodes, where assembled and matrix-free products agree. (The intended claim \"the assembled matrix is the one of strain_tensor_mult\" is false at boundary nodes: C23_refuted.)", "quantifier": "every mesh, every field", "why_tests_cant": "all sizes and vectors", "anchors": ["cafes/fem/assembling.hpp:strain_tensor_assembling", "cafes/fem/matElem.hpp:getMatElemStrainTensorA"]}
{"id": "C24", "title": "Diagonal preconditioner is the diagonal", "statement": "The diag_diag_block multiplication computes the diagonal of the operator computed by the diag_block multiplication (times the input field), on meshes with at least two cells in every periodic direction.", "quantifier": "every mesh (two cells at least in periodic directions), field", "why_tests_cant": "all sizes and vectors", "anchors": ["cafes/fem/operator.hpp:kernel_diag_diag_block"]}
{"id": "C25", "title": "Dirichlet rows are identity rows", "statement": "After the Dirichlet step on the result of an operator, the entries of constrained dofs (boundary nodes of non periodic directions whose face has a condition) equal those of the input vector, and all the other entries are unchanged.", "quantifier": "every mesh, decomposition, set of conditions, vectors", "why_tests_cant": "every decomposition; unbounded sizes", "anchors": ["cafes/fem/bc.hpp:set_dirichlet_impl", "cafes/fem/bc.hpp:SetDirichletOnVec"]}
{"id": "C26", "title": "Dirichlet right-hand side values", "statement": "SetDirichletOnRHS writes at every constrained dof the value of a condition of a face containing the node, evaluated at the coordinates of the node; at edges and corners the last face in the order of the conditions wins; the operation is idempotent and independent of the decomposition.", "quantifier": "every mesh, decomposition, conditions", "why_tests_cant": "all functions, all sizes", "anchors": ["cafes/fem/bc.hpp:SetDirichletOnRHS", "cafes/fem/bc.hpp:kernel_set_dirichlet_on_rhs"]}
{"id": "C27", "title": "Null Dirichlet step", "statement": "SetNullDirichletOnRHS zeroes exactly the constrained dofs.", "quantifier": "every mesh, conditions, decomposition", "why_tests_cant": "all sizes", "anchors": ["cafes/fem/bc.hpp:SetNullDirichletOnRHS"]}
{"id": "C28", "title": "Dirichlet rows of the assembled matrix", "statement": "SetDirichletOnMat replaces by identity rows exactly the rows of the two velocity components of the nodes on the walls, whatever the declared conditions, and keeps all the other rows (every mesh except one process with x periodic and y not); so with conditions on both components of every wall it handles exactly the dofs handled by SetDirichletOnVec and the assembled Stokes operators apply as the matrix-free ones with Dirichlet conditions. The excepted mesh and components without condition are described by C28_stride_refuted and C28_null_condition_refuted.", "quantifier": "every mesh, conditions, decomposition", "why_tests_cant": "all sizes and condition sets", "anchors": ["cafes/fem/bc.hpp:SetDirichletOnMat"]}
{"id": "C29", "title": "Right-hand side assembly", "statement": "set_rhs adds to the right-hand side the mass operator applied to the nodal values of the source (zero for components without a source), and leaves it unchanged when no source is given.", "quantifier": "every mesh, every source", "why_tests_cant": "all functions", "anchors": ["cafes/fem/rhs.hpp:set_rhs"]}
{"id": "C30", "title": "Box intersection test", "statement": "intersect(b1,b2) is true exactly when the closed boxes share a point.", "quantifier": "every pair of valid boxes, every dimension", "why_tests_cant": "continuum", "anchors": ["cafes/particle/geometry/box.hpp:intersect"]}
{"id": "C31", "title": "Overlap and union of boxes", "statement": "overlap_box(b1,b2) contains exactly the points common to both boxes, union_box(b1,b2) is the smallest box containing both; both are commutative, associative, idempotent.", "quantifier": "every pair of boxes", "why_tests_cant": "continuum", "anchors": ["cafes/particle/geometry/box.hpp:overlap_box", "cafes/particle/geometry/box.hpp:union_box", "cafes/particle/geometry/box.hpp:box_inside"]}
{"id": "C32", "title": "Half-open point test is consistent with traversal", "statement": "point_inside(box,p) holds exactly for the points visited by iterate(box,...).", "quantifier": "every box, point, dimension", "why_tests_cant": "unbounded", "anchors": ["cafes/particle/geometry/box.hpp:point_inside", "cafes/algorithm/iterate.hpp:iterate"]}
{"id": "C33", "title": "Box inclusion test", "statement": "check_box_inside(b1,b2), for every pair of boxes, is true exactly when in some direction one of the two extreme coordinates of b2 is in the interval of b1. For boxes with a common point the answer is true unless b2 goes strictly beyond b1 on both sides in every direction; a box b2 with an extreme corner in b1 is reported; a box on one side of b1 in every direction is not. (\"true exactly when the boxes meet\" is false both ways: C33_refuted_true, C33_refuted_false.)", "quantifier": "every pair of boxes", "why_tests_cant": "continuum", "anchors": ["cafes/particle/geometry/box.hpp:check_box_inside"]}
{"id": "C34", "title": "Vector/velocity arithmetic", "statement": "The vector and position operators are the componentwise operations their symbols denote; the mixed operators vector += velocity and velocity - vector compute, componentwise and for every pair, vector - velocity (so the first is not an addition: C34_refuted).", "quantifier": "every pair of vectors", "why_tests_cant": "continuum", "anchors": ["cafes/particle/geometry/vector.hpp:operator+=", "cafes/particle/geometry/vector.hpp:operator-"]}
{"id": "C35", "title": "Cross product laws", "statement": "cross_product is bilinear, antisymmetric, orthogonal to both arguments, satisfies Lagrange's identity, and the 2D variants are the restriction of the 3D one to the plane.", "quantifier": "every pair of vectors", "why_tests_cant": "continuum", "anchors": ["cafes/particle/geometry/cross_product.hpp"]}
{"id": "C36", "title": "Rotations are rigid", "statement": "A quaternion built from an angle and a unit axis acts by rotate() as the rotation of that angle: it preserves distances and the axis, conj() gives the inverse rotation, and in 2D it is the usual rotation matrix.", "quantifier": "every angle, unit axis, vector", "why_tests_cant": "continuum", "anchors": ["cafes/particle/geometry/quaternion.hpp"]}
{"id": "C37", "title": "Quaternion normalisation", "statement": "normalize() divides the quaternion by its squared norm: the direction is kept, the norm of the result is the inverse of the norm, so the result is a unit quaternion if and only if the quaternion is one.", "quantifier": "every non zero quaternion", "why_tests_cant": "continuum", "anchors": ["cafes/particle/geometry/quaternion.hpp:normalize"]}
{"id": "C38", "title": "Bounding box encloses the shape", "statement": "In the plane every point of the super-ellipsoid (contains(p)) is in bounding_box(), for any centre, semi axes, exponents and rotation. In space contains ignores the rotation while bounding_box applies it: the box encloses the shape if and only if every semi axis s_i is at most sum_j |R_ij| s_j, in particular for spheres and for shapes that are not rotated.", "quantifier": "every shape, every point", "why_tests_cant": "continuum", "anchors": ["cafes/particle/geometry/super_ellipsoid.hpp:bounding_box", "cafes/particle/geometry/super_ellipsoid.hpp:contains"]}
{"id": "C39", "title": "Integer bounding box misses no grid node", "statement": "Every grid node whose coordinates are in the particle is inside the half-open integer box bounding_box(h): in the plane for every shape and rotation, in space whenever the bounding box encloses the shape (C38).", "quantifier": "every shape, mesh step, node", "why_tests_cant": "continuum", "anchors": ["cafes/particle/geometry/super_ellipsoid.hpp:bounding_box(h)"]}
{"id": "C40", "title": "Surface sampling lies on the surface", "statement": "The 2D surface(k,tol) of any shape, rotated or not, has 8m-4 distinct points for m recorded angles, all satisfying the implicit equation of the rotated shape; the parametric surface(u) in 2D and surface(u,v) in 3D ignore the rotation: all their points satisfy the implicit equation of the shape without rotation (so in 2D not that of the rotated shape, C40_refuted); radial is the position relative to the centre.", "quantifier": "every shape and sampling", "why_tests_cant": "continuum", "anchors": ["cafes/particle/geometry/super_ellipsoid.hpp:surface", "cafes/particle/geometry/uniform_sampling.hpp"]}
{"id": "C41", "title": "linspace", "statement": "linspace(a,b,n) returns n equispaced values starting at a, nondecreasing, in [a,b], ending at b when the end is included and strictly before it otherwise.", "quantifier": "every a<=b, n", "why_tests_cant": "unbounded n", "anchors": ["cafes/particle/geometry/linspace.hpp"]}
{"id": "C42", "title": "Fluid points inside a particle are found exactly", "statement": "find_fluid_points_insides(p,box,h) returns, in lexicographic order and without repetition, exactly the nodes of the box that are contained in the particle.", "quantifier": "every particle, box of non negative indices, mesh step", "why_tests_cant": "unbounded", "anchors": ["cafes/particle/particle.hpp:find_fluid_points_insides"]}
{"id": "C43", "title": "Surface points are localised in their cell", "statement": "Each entry of find_surf_points_insides is (i, x) with i in the box, i*h + x the original surface point, and (for points with non negative coordinates) 0 <= x < h.", "quantifier": "every particle, box, mesh step", "why_tests_cant": "continuum", "anchors": ["cafes/particle/particle.hpp:find_surf_points_insides"]}
{"id": "C44", "title": "Surface and radial lists stay aligned", "statement": "The k-th entries of the lists built by find_surf_points_insides and find_radial_surf_points_insides describe the same surface point (the second is its position relative to the centre).", "quantifier": "every particle, box, mesh step", "why_tests_cant": "continuum", "anchors": ["cafes/particle/particle.hpp:find_radial_surf_points_insides"]}
{"id": "C45", "title": "Each surface point and interior node is owned once", "statement": "Over all the processes, each surface point falling in the mesh (final nodes of non periodic directions excluded) and each interior node belongs to exactly one process, so the reduced counts (nb_surf_points, num, total control size) do not depend on the decomposition.", "quantifier": "every decomposition, every set of particles", "why_tests_cant": "every number of processes", "anchors": ["cafes/particle/particle.hpp:set_materials"]}
{"id": "C46", "title": "Volume estimate", "statement": "num[ipart] counts exactly the points of the sub-grid refined by scale that are inside the particle; it is monotone w.r.t. inclusion of particles.", "quantifier": "every particle, box, scale", "why_tests_cant": "unbounded", "anchors": ["cafes/particle/particle.hpp:kernel_num_count"]}
{"id": "C47", "title": "Control vector layout", "statement": "The control vector size computed by set_materials is exactly Dimensions times the number of interior nodes; set_rhs_problem, the force computation and the projection enumerate it in the same order, each entry once and never past the end.", "quantifier": "every set of particles, every decomposition", "why_tests_cant": "unbounded", "anchors": ["cafes/problem/particle_operator.hpp:set_rhs_problem_impl", "cafes/particle/forces_torques.hpp:forces_torques_with_control", "cafes/problem/particle_operator.hpp:compute_y", "cafes/particle/particle.hpp:set_materials"]}
{"id": "C48", "title": "Control is transferred as a force density", "statement": "set_rhs_problem writes into the right-hand side at each interior node the control (plus force) of the particle and nothing elsewhere.", "quantifier": "every set of particles with disjoint interiors", "why_tests_cant": "unbounded", "anchors": ["cafes/problem/particle_operator.hpp:set_rhs_problem_impl"]}
{"id": "C49", "title": "Single layer is self equilibrated", "statement": "simple_layer subtracts from the surface field its mean and its mean rotation: constants are annihilated, the resulting field has zero mean for balanced sample points (zero mean lever arm), and it is idempotent on the constant part.", "quantifier": "every particle, every surface field, every decomposition", "why_tests_cant": "continuum", "anchors": ["cafes/problem/particle_operator.hpp:simple_layer"]}
{"id": "C50", "title": "Rigid motion subtraction", "statement": "interp_rigid_motion turns the surface value g at a point at r from the centre into g + V - omega x r, for every particle and point; it subtracts the rigid velocity V + omega x r when the translational velocity is zero (C50_refuted is a counterexample with V not zero).", "quantifier": "every particle, velocity, surface", "why_tests_cant": "continuum", "anchors": ["cafes/problem/particle_operator.hpp:interp_rigid_motion_"]}
{"id": "C51", "title": "Surface interpolation and spreading are adjoint", "statement": "SL_to_Rhs is the transpose of interp_fluid_to_surf up to the surface weight: <g, interp(u)> = <spread(g), u>.", "quantifier": "every surface list, field", "why_tests_cant": "continuum", "anchors": ["cafes/problem/particle_operator.hpp:interp_fluid_to_surf", "cafes/problem/particle_operator.hpp:SL_to_Rhs"]}
{"id": "C52", "title": "Forces and torques", "statement": "The force on particle i computed from the control is the sum of its control times volume/num; translating the reference point changes torques by the cross product with the force.", "quantifier": "every control, particle", "why_tests_cant": "continuum", "anchors": ["cafes/particle/forces_torques.hpp"]}
{"id": "C53", "title": "Singular force contribution is added to the right particle", "statement": "forces_torques_with_control with singularities, in dimension two and three: the loop adding the singular forces stays inside the array of forces if and only if there is at most one particle, and then the singular force is added to the force of the particle. (With two particles it does not: C53_refuted.)", "quantifier": "every number of particles", "why_tests_cant": "unbounded number of particles", "anchors": ["cafes/particle/forces_torques.hpp:117"]}
{"id": "C54", "title": "NtoD operator indexing", "statement": "The loops of NtoD over the particles use each entry of the local force/velocity vector exactly once, in order, without going out of bounds, with D + T consecutive entries per particle that meets the process box; in 3D the forces and torques read are those of the particle. (In 2D the torque read for particle i is that of particle 2i, out of bounds from i = n/2 on; the template does not instantiate as written.)", "quantifier": "every number of particles, every set of particles meeting the box, 2D and 3D", "why_tests_cant": "unbounded number of particles", "anchors": ["cafes/problem/ntod.hpp"]}
{"id": "C55", "title": "DtoN operator is linear after set-up", "statement": "Without singularities, whatever the sequence of API calls and the state, the outer solver is only given linear operators (no boundary value, no rigid motion, no source), and setup_RHS + solve from a zero control leave the flow of the control found, for which the particles move rigidly. With use_sing the control found leaves exactly the residual of the singular source; a second setup_RHS + solve on the same object leaves the whole residual of the problem without control. With the default flags turned off on a fresh object, the boundary values, the source, the rigid motions and the singular source are all ignored: zero right-hand side, fluid at rest.", "quantifier": "every sequence of API calls, every problem with linear pieces, exact outer solver", "why_tests_cant": "histories are unbounded", "anchors": ["cafes/problem/dton.hpp"]}
{"id": "C56", "title": "Truncation function", "statement": "alphaTrunc is odd, strictly increasing on [-1,1] from -1 to 1; dalphaTrunc, d2alphaTrunc, d3alphaTrunc are its successive derivatives, and the fourth derivative at x is x times d4alphaTrunc(x) (not d4alphaTrunc, C56_d4_refuted).", "quantifier": "every real", "why_tests_cant": "continuum", "anchors": ["cafes/particle/singularity/truncation.hpp:alphaTrunc"]}
{"id": "C57", "title": "Cut-off function", "statement": "With l = eps (every call of the library) chiTrunc(X,l,eps) is 1 on the axis, 0 for X^2 >= l+eps, between 0 and 1, non increasing in |X|, and dchiTrunc, d2chiTrunc, d3chiTrunc are its successive derivatives with respect to X^2. For other parameters (l >= eps > 0): chiTrunc is constant 1 when l-eps > 1, and otherwise 0 for X^2 < l-eps and the smooth step beyond; it is the intended cut-off if and only if l = eps.", "quantifier": "every X, l >= eps > 0", "why_tests_cant": "continuum", "anchors": ["cafes/particle/singularity/truncation.hpp:chiTrunc"]}
{"id": "C58", "title": "Contact frame is orthonormal", "statement": "The basis built for a pair of particles at distinct positions: in the plane it is orthonormal with the axis along the centre line n; in space it is orthonormal if and only if, v being the relative velocity, either v is along n and (n_2 = 0 or n_0+|n_1|+|n_2| = 0), or v is not along n and sum_i v_i n_i (1-n_i) = 0. When it is orthonormal get_pos_in_part_ref / get_pos_from_part_ref are inverse isometries sending the two centres on the axis. (Orthonormality for all contacts is false: C58_frame3D_refuted.)", "quantifier": "every pair of distinct particles, velocities, points", "why_tests_cant": "continuum", "anchors": ["cafes/particle/singularity/singularity.hpp:construct_base", "cafes/particle/singularity/singularity.hpp:get_pos_in_part_ref"]}
{"id": "C59", "title": "Cut-off radius bounds", "statement": "The cut-off distance of a singularity is at least sqrt(2)*h and param is half its square, so that the truncated field vanishes at distance >= cut-off from the axis.", "quantifier": "every pair of particles, alpha, h", "why_tests_cant": "continuum", "anchors": ["cafes/particle/singularity/singularity.hpp:singularity"]}
{"id": "C60", "title": "Singular velocity gradients are the derivatives of the singular velocity", "statement": "The coded derivatives of the singular velocity of the normal motion. Plane: the four coded derivatives are, at every point, the partial derivatives of the divergence free field made of the coded cross component and of the axial component deriving from its stream function; the coded axial component differs from it by an explicit truncation term (the r-derivative of the stream function of the cross velocity the code leaves out). Space: off the axis the nine coded derivatives are the partial derivatives of the coded components; on the axis they are too except dxux and dyuy, coded 0 instead of -3Uz(a-z)/a^3.", "quantifier": "every point, curvature, gap, velocity", "why_tests_cant": "continuum of points", "anchors": ["cafes/particle/singularity/UandPNormal.hpp"]}
{"id": "C61", "title": "Singular velocity is divergence free", "statement": "DIVCART of the planar singular velocity is identically zero; the coded planar velocity is divergence free once the missing cross term is added; in space the velocity is divergence free everywhere, DIVCART is 0 off the axis and 6Uz(a-z)/a^3 on the axis.", "quantifier": "every point, curvature, gap, velocity", "why_tests_cant": "continuum of points", "anchors": ["cafes/particle/singularity/UandPNormal.hpp:DIVCART_normalMvt2D", "cafes/particle/singularity/UandPTang.hpp"]}
{"id": "C62", "title": "No slip of the singular velocity", "statement": "On the osculating parabola of the first particle the singular velocity is minus half the relative velocity times the cut-off in the axis direction, with zero cross component; on the second one the cross component vanishes and the axial one is plus half the relative velocity times the cut-off plus an explicit term in the derivatives of the cut-off, which vanishes where the cut-off is locally constant (plane and space).", "quantifier": "every point of the parabolas, curvature, gap", "why_tests_cant": "continuum", "anchors": ["cafes/particle/singularity/UandPNormal.hpp"]}
{"id": "C63", "title": "Gradient tensor change of frame", "statement": "get_grad_u_sing is B^T G B (any frame): the trace is preserved for orthonormal frames, and it is the gradient of the mesh-frame velocity whenever G is the gradient in the contact frame. For the singularity of every pair of balls: in space the gradient of get_u_sing is get_grad_u_sing at every point off the line of centres, plus an explicit multiple of the cross projector on it; in the plane get_grad_u_sing is the gradient of the velocity with the consistent axial component, and get_u_sing differs from that velocity by an explicit term.", "quantifier": "every frame, gradient", "why_tests_cant": "continuum", "anchors": ["cafes/particle/singularity/singularity.hpp:get_grad_u_sing"]}
{"id": "C64", "title": "Number of multigrid levels", "statement": "With L levels, L-1 is the least number of halvings which brings the smallest direction (the third one counts in 3D only) to at most 8 points; hence on a non periodic mesh with more than 8 points in its smallest direction, that direction has 5 to 9 points on the coarsest level and at least 9 on all other levels.", "quantifier": "every grid size", "why_tests_cant": "unbounded", "anchors": ["cafes/problem/stokes.hpp:setPMMSolver"]}
{"id": "C65", "title": "Level matrices", "statement": "The loop recovering the level of a coarse mesh in the level matrices ends, with the right level, for every mesh of a hierarchy of square plane meshes, and the operator of level k is given the step 2^k h. It does not end in general on rectangles (9 x 129 points), and in 3D it never ends on a cubic mesh with at least two levels.", "quantifier": "every hierarchy", "why_tests_cant": "non termination cannot be observed by a finite test", "anchors": ["cafes/problem/stokes.hpp:createLevelMatrices"]}
{"id": "C66", "title": "Preallocation covers the assembly", "statement": "On every plane mesh of createMesh, process and options, PreallocateMat completes without using an id outside the local maps and without overrunning its buffers, and for every row of a dof of the process the numbers of entries it reserves (own columns, other processes' columns) are at least the numbers of distinct columns of each kind in which the whole assembly, by any process, inserts a value.", "quantifier": "every mesh and decomposition", "why_tests_cant": "unbounded sizes", "anchors": ["cafes/fem/assembling.hpp:PreallocateMat"]}
{"id": "C67", "title": "Mass matrix of the velocity/pressure pair", "statement": "apply_mass_matrix on a pair (velocity u, pressure p) returns, for the velocity block, the vector of the integrals of the velocity field against the velocity test fields, and for the pressure block 2^-d times the integrals of the pressure field against the pressure test fields (the doubling of the pressure step is done on a copy and lost); it is thus the mass matrix of the mixed space exactly for the arguments without pressure, the only ones the library passes.", "quantifier": "every mesh step, mesh size, periodicity and cut between processes, every pair of vectors", "why_tests_cant": "continuum", "anchors": ["cafes/fem/matrixFree.hpp:apply_mass_matrix"]}
{"id": "C68", "title": "Diagonal assembling", "statement": "diagonal_assembling(value) completes without error and leaves the matrix unchanged whatever value, mesh and decomposition; so it adds value on the diagonal of the pressure block if and only if value = 0 (the only value used by the library).", "quantifier": "every value, mesh", "why_tests_cant": "continuum", "anchors": ["cafes/fem/assembling.hpp:diagonal_assembling"]}
{"id": "C69", "title": "Interpolation on a refined grid", "statement": "linear_interpolation in 2D on one process: with the same refinement factor r >= 1 in both directions, every node of the r times finer velocity mesh holds after the call the value of the finite element velocity at that node (computed in any cell that contains it; bilinear fields are reproduced), whatever the array held before. This needs equal factors: with refine[1] < refine[0] the last fine column is never written, with refine[0] < refine[1] the call writes beyond the last fine column; and the pressure call writes the slot just after the end of its array.", "quantifier": "every mesh, step, refinement pair, nodal vector and previous content", "why_tests_cant": "unbounded", "anchors": ["cafes/posttraitement/interpolation.hpp"]}
{"id": "C70", "title": "XDMF description", "statement": "The XDMF file describes the velocity mesh with the sizes and steps of the mesh (equal to the stored shape exactly when both directions have as many points); for the pressure the step is right, the topology has the pressure mesh sizes exactly on non periodic meshes, the data item exactly on fully periodic ones, and the two never agree.", "quantifier": "every mesh size and periodicity", "why_tests_cant": "unbounded", "anchors": ["cafes/io/hdf5.hpp:create_xdmf"]}
{"id": "C71", "title": "Particle set-up can be repeated", "statement": "Repeating set_materials: on the processes that meet the particle the surface lists are rebuilt from the current particle, elsewhere the previous lists are kept; nb_surf_points is increased by the previous values of the processes that do not meet the particle; the volume count is increased by the sum of all previous counts, so after n calls on unchanged particles with P processes it is (1 + P + ... + P^(n-1)) times the true count.", "quantifier": "every particle, mesh, decomposition, previous content, number of calls", "why_tests_cant": "histories of calls and unbounded meshes", "anchors": ["cafes/particle/particle.hpp:set_materials", "cafes/problem/dton.hpp:create_Mat_and_Vec"]}
{"id": "C72", "title": "A constant control density gives the particle's weight", "statement": "When the control of a particle is a constant density g, the total force it puts on the fluid is volume * g * (number of mesh nodes in the particle) / num, num being the count on the refined grid. (Not volume * g: C72_refuted.)", "quantifier": "every particle, density, mesh", "why_tests_cant": "continuum and unbounded meshes", "anchors": ["cafes/algorithm/particle_operator.hpp:set_rhs_problem", "cafes/particle/particle.hpp"]}
{"id": "C73", "title": "Surface transfer is conservative and consistent", "statement": "Spreading surface forces onto the velocity grid conserves their total; interpolation at a surface point reproduces affine fields and lies between the extreme nodal values of its cell.", "quantifier": "every particle list, mesh, field, surface force", "why_tests_cant": "continuum and unbounded sizes", "anchors": ["cafes/algorithm/particle_operator.hpp:interp_fluid_to_surf", "cafes/algorithm/particle_operator.hpp:SL_to_Rhs"]}
{"id": "C83", "title": "SEM leaves the flow of its control", "statement": "After setup_RHS and solve on a fresh SEM object, with an exact outer solver, the control found makes the residual of the rigid-motion constraint vanish; the fluid solution left in the problem is the flow driven by that control, the source, the boundary values and the particle forces, plus the flow of the right-hand side left by the last application of the operator (so it is not the flow of the control, C83_refuted).", "quantifier": "every mesh, particles, source, boundary values, exact Krylov solver and sequence of vectors it applies the operator to", "why_tests_cant": "ranges over all Krylov iteration histories and all problems", "anchors": ["cafes/problem/sem.hpp:sem_matrix", "cafes/problem/sem.hpp:SEM::solve", "cafes/problem/particle_operator.hpp:init_problem"]}
{"id": "C74", "title": "Projection recovers the particle mean of a field", "statement": "The projection of a fluid field on the particles delivers, to every particle, the sum over its sampled points (all sub-cells of all velocity nodes it touches, on every process) of the interpolated field and of its moment, each sub-cell point counted on exactly one process; after division by the number of points, uniform fields are returned exactly and affine fields are returned as their value at the barycentre of the sample points.", "quantifier": "every mesh, process grid, set of particles, sampling scale, field; 2D and 3D", "why_tests_cant": "unbounded meshes, particle lists, process grids and a continuum of fields", "anchors": ["cafes/problem/particle_operator.hpp:projection", "cafes/problem/particle_operator.hpp:projection_impl", "cafes/problem/particle_operator.hpp:kernel_projection"]}
{"id": "C85", "title": "Box length and corners", "statement": "length() of a box is the product of the distances between opposite faces whatever the order of the corners; for an integer box with ordered corners it is the number of points visited by iterate, and for any integer box it is nonnegative and at least that number, so reserving length() slots is legal and sufficient. get_box_points lists exactly the 2^d corners, each once if no side is degenerate.", "quantifier": "every box of any size and (for length) any dimension", "why_tests_cant": "unbounded coordinates", "anchors": ["cafes/particle/geometry/box.hpp:length", "cafes/particle/geometry/box.hpp:get_box_points", "cafes/particle/particle.hpp:find_fluid_points_insides"]}
{"id": "C77", "title": "Every pair of particles is treated exactly once", "statement": "With at least one particle, the loops over pairs of particles (source term, last solution, surface values, singular forces) visit every unordered pair of distinct particles exactly once, never pair a particle with itself and never read past the end of the list; the singular force a particle receives is minus the sum of the forces of the pairs it belongs to, with the part-1 and part-2 forces given to the right particle. With no particle the loop reads out of bounds (size()-1 wraps around, C77_no_particle_refuted).", "quantifier": "every number of particles, every choice of which pairs have a singularity and of the pair forces", "why_tests_cant": "unbounded number of particles", "anchors": ["cafes/particle/singularity/add_singularity.hpp:add_singularity_in_fluid", "cafes/particle/singularity/add_singularity.hpp:add_singularity_to_last_sol", "cafes/particle/singularity/add_singularity.hpp:compute_singular_forces"]}
{"id": "C78", "title": "The singular forces are the quadrature of the singular stress over the contact cap", "statement": "compute_singular_forces(N): in 2D the loop never runs and the force is 0 for every pair and N; in 3D the force is the sum over the N*N points of the cap of the traction of the singular stress, point number k being counted N*N-k times (so it is the quadrature for N = 1, and not for N = 2, C78_3D_refuted). The tensor used is the stress (viscosity 1) of the gradient and pressure in 2D; in 3D it is so exactly when the gradient is symmetric in the plane of the contact, which holds for the singular field.", "quantifier": "every pair of particles, every number N of quadrature points, every gradient and pressure field", "why_tests_cant": "all geometries and all numbers of quadrature points", "anchors": ["cafes/particle/singularity/add_singularity.hpp:compute_singular_forces_on_part1", "cafes/particle/singularity/add_singularity.hpp:compute_singular_forces_on_part2"]}
{"id": "C80", "title": "The singular source term is the weak form of the singular fields", "statement": "add_singularity_in_fluid adds to the right-hand side the vector whose product with any finite element velocity v is the sum over the pairs of the quadrature, over the sub-cells of the zone of the pair lying outside both particles, of p div v - grad u : grad v (u, p singular velocity and pressure), each sub-cell weighted by its measure. In particular the source has zero net force, and it does not depend on how the mesh is distributed.", "quantifier": "every mesh, spacing, process grid, list of pairs, zone, sub-cell scale, singular field, test velocity; 2D and 3D", "why_tests_cant": "continuum of fields and unbounded meshes and decompositions", "anchors": ["cafes/particle/singularity/add_singularity.hpp:computesingularST", "cafes/particle/singularity/add_singularity.hpp:add_singularity_in_fluid", "cafes/fem/quadrature.hpp:P1_integration_grad"]}
{"id": "C81", "title": "The singular fields added back to the solution do not depend on the decomposition", "statement": "add_singularity_to_last_sol adds to each node of the solution the weighted sum of the singular velocity over the points of the cells around the node owned by the process of the node, and nothing from the other cells; so at the nodes all of whose cells are on their process it is the sum over all the cells (a weighted average), and elsewhere the result depends on the decomposition (C81_refuted).", "quantifier": "every mesh, process grid, list of pairs and solution", "why_tests_cant": "unbounded meshes and process grids", "anchors": ["cafes/particle/singularity/add_singularity.hpp:addsingularity", "cafes/particle/singularity/add_singularity.hpp:add_singularity_to_last_sol", "cafes/petsc/vec.hpp:local_to_global"]}
{"id": "C86", "title": "The Stokes operator is the weak form of the Stokes problem", "statement": "For all velocities u, v and pressures p, q, the product of (v, q) with the matrix-free Stokes operator applied to (u, p) is the integral over the domain of 2 D(u):D(v) (or grad u : grad v with the Laplacian) - p div v + q div u, u and v being the Q1 fields on the velocity mesh, p and q the Q1 fields on the twice coarser pressure mesh; the same for the mass, Laplacian and strain operators alone.", "quantifier": "all nodal vectors, mesh sizes, steps, periodicities and cuts between processes, 2D and 3D", "why_tests_cant": "integrals over a continuum of fields; tests check a few vectors on a few meshes", "anchors": ["cafes/fem/matrixFree.hpp:stokes_matrix", "cafes/fem/matrixFree.hpp:diag_block_matrix", "cafes/fem/operator.hpp:strain_tensor_mult", "cafes/fem/operator.hpp:B_and_BT_mult", "cafes/fem/matElem.hpp"]}
{"id": "C76", "title": "The mesh box scanned for a contact covers the whole zone where the singular fields act", "statement": "For two particles (discs, or spheres whose contact frame is orthonormal) on a mesh that resolves them (sqrt(2)*h at most both radii), every point of the gap between them (outside both particles, projection on the line of centres between the centres) at which the singular velocity, its gradient or the singular pressure is non-zero has its coordinates inside the range of mesh points returned by get_box.", "quantifier": "every pair of particles at distinct positions, every mesh step, every alpha, every point of the gap", "why_tests_cant": "the pairs, radii, orientations and points form a continuum; the box is built from four or eight corners and floors/ceilings, which a test can only sample", "anchors": ["cafes/particle/singularity/singularity.hpp: get_box", "cafes/particle/singularity/singularity.hpp: get_u_sing, get_grad_u_sing, get_p_sing"]}
{"id": "C84", "title": "Repeated set-up of the fluid right-hand side", "statement": "After k+1 calls of setup_RHS of the Stokes problem, each constrained velocity dof holds the value of its Dirichlet condition and every other dof holds its initial value plus k+1 times the load of the source term: the calls accumulate, and without source the calls after the first change nothing.", "quantifier": "every mesh, decomposition, source, boundary conditions, initial right-hand side, number of calls", "why_tests_cant": "unbounded number of calls, all sizes", "anchors": ["cafes/problem/stokes.hpp:setup_RHS"]}
{"id": "C87", "title": "What DtoN and SEM leave to the user", "statement": "With the real pieces of the library (boundary conditions, source, control, surface transfers, singular source), on any mesh, decomposition and particles: after setup_RHS and solve on a fresh DtoN object without singularity, if the outer solver is exact, the inner one linear and the last inner system solved, the fluid velocity and pressure have the boundary values, satisfy the discrete Stokes equations with source + control as volume force at all other nodes, are discretely divergence free, and the second problem, driven on the particle surfaces by u + V - omega x r, is at rest at all nodes inside the particles. After SEM setup_RHS + solve, for the control found the second problem moves, at the nodes inside each particle, with the rigid motion given by its own mean and mean rotation.", "quantifier": "every mesh, decomposition, particle set, boundary values, source, linear inner solver, exact outer solver", "why_tests_cant": "ranges over all problems and solver histories", "anchors": ["cafes/problem/dton.hpp:DtoN::solve", "cafes/problem/sem.hpp:SEM::solve", "cafes/problem/particle_operator.hpp", "cafes/problem/stokes.hpp:setup_RHS"]}
{"id": "C88", "title": "Singular pressure and velocity satisfy the lubrication equation", "statement": "For the normal motion of two close particles, the coded singular pressure is constant across the gap and its gradient along the gap is the second derivative across the gap of the coded singular cross velocity: in space at every point, cut-off zone included; in the plane up to an explicit term in the derivative of the cut-off, so exactly where the cut-off is stationary.", "quantifier": "every point, curvatures, gap, relative velocity, cut-off radius", "why_tests_cant": "continuum of points and parameters", "anchors": ["cafes/particle/singularity/UandPNormal.hpp:p_sing_withT_normalMvt2D", "cafes/particle/singularity/UandPNormal.hpp:p_sing_withT_normalMvt3D", "cafes/particle/singularity/UandPNormal.hpp:ur_sing_normalMvt3D"]}
{"id": "C89", "title": "VTK files reproduce the computed fields", "statement": "save_VTK writes per process a .vts file with exactly as many points and values as its extent announces, in VTK order: at each node of the extent a reader finds the physical coordinates of the node (pressure nodes at twice the velocity step) and the value of the solution there. The .pvts collection lists, for each rank, the extent of the file of that rank; on meshes without periodic direction the pieces stay inside the whole extent, cover it and agree on overlaps, so the reassembled fields are the computed ones. On periodic meshes the pieces do not stay inside the whole extent (refuted for the code as it is).", "quantifier": "all mesh sizes, process layouts and rankings, steps, velocity and pressure vectors, dimensions 2 and 3", "why_tests_cant": "A test opens one file of one run; the agreement of the order of insertion with the extent and the covering of the whole extent must hold for every decomposition.", "anchors": ["cafes/io/vtk.hpp: save_VTK (2D 79-264, 3D 441-615)"]}
{"id": "C90", "title": "Particle files hold the particles", "statement": "saveParticles writes one point per particle: the i-th point is the centre of the i-th particle (in 2D with third coordinate 0), with its first shape factor as radius, its force and its torque. The overload without forces writes third coordinate 0 in 3D too, hence the true centre exactly when the centre lies in the plane z = 0 (refuted for the code as it is).", "quantifier": "all lists of particles, forces and torques with at least one force and torque per particle, dimensions 2 and 3", "why_tests_cant": "The pairing of indices must hold for every number of particles; a visual check of one run does not see a lost coordinate when particles lie in the plane.", "anchors": ["cafes/io/vtk.hpp: saveParticles (636-699, 702-751, 754-818)"]}
{"id": "C91", "title": "The planar tangential singular field solves the lubrication problem", "statement": "In 2D, for two particles sliding on each other with relative velocity U: the four coded derivatives of the tangential singular velocity are its true partial derivatives, the field is divergence free (and the coded divergence is identically 0), the cross velocity is -U/2 on the first parabola and U/2 on the second, times the cut-off; the axial velocity vanishes on the first parabola and equals on the second an explicit expression in the derivatives of the cut-off only (zero when the curvatures are equal or the cut-off is stationary); the pressure depends on the cross coordinate only and its derivative is the second axial derivative of the cross velocity.", "quantifier": "all points, curvatures H, M > 0, gaps d > 0, velocities U and cut-off lengths > 0", "why_tests_cant": "Derivatives, incompressibility and boundary values are identities over a continuum of points and parameters; sampling with a tolerance cannot exclude a wrong term.", "anchors": ["cafes/particle/singularity/UandPTang.hpp: p_sing_withT_tangMvt2D, ux_sing_tangMvt2D, uz_sing_tangMvt2D, dxux/dzux/dxuz/dzuz_sing_tangMvt2D, DIVCART_tangMvt2D (53-545)"]}
{"id": "C92", "title": "The tangential singular field in space solves the lubrication problem, with the two curvatures exchanged", "statement": "In 3D, for two particles sliding on each other with relative velocity U: off the line of centres the nine coded derivatives of the tangential velocity are its true partial derivatives, the field is divergence free and both coded divergences are 0; everywhere the pressure is independent of the height and its cross derivatives are the second height derivatives of the cross velocities. The field sticks to the paraboloids z = -M r^2/2 and z = d + H r^2/2 (velocity -U/2 and U/2 along x times the cut-off, axial velocity zero up to explicit terms in the derivatives of the cut-off): the curvatures are exchanged with respect to the planar field and to the normal fields, so it sticks to the two particles when H = M and not otherwise (refuted by a counterexample). On the line of centres eight coded derivatives and the divergence are right; the ninth, dxuz, is coded 0 and the true value is given (refuted).", "quantifier": "all points, curvatures H, M > 0, gaps d > 0, velocities U and cut-off lengths > 0", "why_tests_cant": "Derivatives, incompressibility and boundary values are identities over a continuum of points and parameters; a test with two equal spheres does not see the exchanged curvatures.", "anchors": ["cafes/particle/singularity/UandPTang.hpp: p_sing_withT_tangMvt3D, U0_tang3D, V0_tang3D, W0_tang3D and their derivatives, ur/ut/uz/ux/uy_sing_tangMvt3D and their derivatives, DIVCYLIND_tangMvt3D, DIVCART_tangMvt3D (557-1492)"]}
{"id": "C93", "title": "The discrete Stokes problem determines the velocity, and the pressure up to a constant", "statement": "Whatever the right-hand side, the boundary values and the number of processes, the matrix-free Stokes system has at most one velocity, and its pressure is unique up to an additive constant: two velocity/pressure pairs sent to the same vector by the Stokes operator with boundary conditions have the same velocity at every node of the grid, and on a grid with at least two coarse cells in every direction but one their pressures differ by a constant. This holds for the strain tensor operator when some wall imposes all the components, for the Laplacian as soon as each component is imposed on some wall (not necessarily the same). The Laplacian and strain operators alone, with these boundary conditions, are injective. The condition on the grid is sharp: in a closed box whose walls impose every component the pressure is determined up to a constant if and only if there are at least two coarse cells in every direction but one.", "quantifier": "all grid sizes, periodicities and ownership ranges, all space steps > 0, all boundary conditions holding the components, all right-hand sides, 2D and 3D", "why_tests_cant": "Injectivity is a statement about every pair of fields on every grid; a spurious mode (an hourglass pressure, a rigid motion) does not show up in runs whose data do not excite it.", "anchors": ["cafes/fem/matrixFree.hpp: stokes_matrix, diag_block_matrix", "cafes/fem/operator.hpp: laplacian_mult, strain_tensor_mult, B_and_BT_mult", "cafes/fem/matElem.hpp: matElem2d_pdxu, matElem3d_pdxu, getMatElemLaplacian, getMatElemStrainTensor, getMatElemPressure", "cafes/fem/bc.hpp: SetDirichletOnVec"]}
{"id": "C94", "title": "The discrete Stokes problem is solvable exactly when the imposed flux matches the divergence source", "statement": "The total of the divergence rows of the Stokes operator is the flux of the velocity out of the walls (trapezoidal rule on the wall nodes). When all the walls impose their normal component (closed box), the discrete Stokes system with right-hand side (f, s) has a solution if and only if the total of s is the flux of the wall values of f; in particular the system set up by setup_RHS (no divergence source) is solvable if and only if the imposed wall velocity has no net flux, whatever the sources. When some wall leaves its normal component free (open box), the system has exactly one solution, pressure included, for every right-hand side. The Laplacian and strain operators with boundary conditions are onto.", "quantifier": "all grid sizes with two coarse cells in every direction but one, all periodicities and ownership ranges, all space steps > 0, all boundary conditions holding the components on some wall, all right-hand sides and sources, 2D and 3D", "why_tests_cant": "Solvability for every right-hand side is a statement on the range of the operator on every grid; a run with compatible data never meets the singular case.", "anchors": ["cafes/problem/stokes.hpp: setup_RHS, CreatePressureNullSpace", "cafes/fem/matrixFree.hpp: stokes_matrix, diag_block_matrix", "cafes/fem/operator.hpp: B_and_BT_mult", "cafes/fem/bc.hpp: SetDirichletOnVec, SetDirichletOnRHS"]}
{"id": "C95", "title": "Sampling of the surface of a 3D particle", "statement": "For positive steps and tolerance, the 3D surface(k,tol) terminates. Its intended result (the list returned under the memory allocations for which its behaviour is defined: one and only one list) is symmetric with respect to the plane of the equator, balanced around the centre, made of points of the super-ellipsoid whose two exponents are exchanged (so of the particle itself when the exponents are equal: spheres, ellipsoids), and for a sphere has the stated number of points. As coded: the behaviour is always undefined, because the mirroring loop pushes into the vector it iterates over and the vector always reallocates before the last read, under the growth policies of the standard libraries (C95_undefined); when the exponents differ some points are not on the surface of the particle (C95_off); the poles are counted four times and the equator twice (C95_repeated).", "quantifier": "all centres, semi axes, exponents, rotations, steps and tolerances; all allocation policies (all policies growing by at most a factor two for the undefined behaviour)", "why_tests_cant": "Whether a read through an invalidated iterator shows depends on the allocator; the position of the points is a statement over a continuum of shapes and steps.", "anchors": ["cafes/particle/geometry/super_ellipsoid.hpp:surface", "cafes/particle/geometry/uniform_sampling.hpp:uniform_sampling", "cafes/particle/particle.hpp:set_materials"]}
{"id": "C96", "title": "Polynomial Stokes flows are computed exactly", "statement": "Take a Stokes flow with constant force whose velocity components are polynomials of degree two, component c without the square of its own coordinate, whose pressure is affine and which does not depend on the periodic coordinates (Couette, Poiseuille with inlet and outlet or periodic with a driving force, pipe profile, linear stagnation flow). If its velocity is imposed on all the walls and its force given as source, the nodal values of its velocity and pressure satisfy every row of the problem that setup_RHS and the Stokes operator (strain form and Laplacian form) assemble; when one direction at least is not periodic, every solution of the discrete problem is this flow at every velocity node, and up to a constant at every pressure node. The restriction on squares is needed: for the Stokes flow u=(x²,-2xy), p=2x the divergence row of a corner is not satisfied.", "quantifier": "all flows of this family, all mesh sizes and steps (different in each direction), all periodicities, all process grids, 2D and 3D", "why_tests_cant": "A test runs a few flows on a few meshes up to a tolerance; the exactness is for a whole family of flows, all meshes and all decompositions.", "anchors": ["cafes/problem/stokes.hpp:setup_RHS", "cafes/fem/operator.hpp:strain_tensor_mult", "cafes/fem/operator.hpp:laplacian_mult", "cafes/fem/operator.hpp:B_and_BT_mult", "cafes/fem/bc.hpp:SetDirichletOnVec", "cafes/fem/rhs.hpp:set_rhs"]}
{"id": "C97", "title": "Interpolation on a refined grid with several processes", "statement": "linear_interpolation in 2D on any number of processes, same factor r in both directions: a node of the fine velocity mesh, owned there by a process one of whose cells (in the original mesh) contains it, holds after the call the value of the finite element velocity; a node that is in no cell of its owner keeps whatever the local array held. Hence all the nodes are right when the blocks of the fine mesh start at the first fine node of the blocks of the mesh, or at the next one, and every process has elements. With the meshes of createMesh for 2k pressure points split evenly on two processes, and the evenly split fine mesh that PETSc builds, r-1 columns of fine nodes are not set for every r >= 2, and the first process writes outside of its local array.", "quantifier": "every mesh, decomposition of the mesh and of the fine mesh, step, factor, nodal vector and previous contents of the arrays", "why_tests_cant": "ranges over all decompositions chosen by the run-time and all previous memory contents", "anchors": ["cafes/posttraitement/interpolation.hpp", "linear_interpolation", "cafes/petsc/vec.hpp"]}
{"id": "C98", "title": "Spectral equivalence of the operators and of their preconditioners", "statement": "Against every test velocity that vanishes on the walls, the strain operator is the Laplacian operator plus the operator of the divergences, for every velocity. Hence, for velocities that vanish on the walls, the strain energy is between once and twice the Laplacian energy (the upper bound holds for all), and with the velocity imposed on all the walls every eigenvalue of the strain operator with respect to the Laplacian operator, both with their Dirichlet rows, is in [1, 2]. The Laplacian and strain energies are at most 2^d and 2^(d+1) times the form of the diagonal given to the Jacobi preconditioner of the velocity, the pressure mass is between (1/2)^d and (3/2)^d times the diagonal given to its Jacobi preconditioner. With the strain operator the Jacobi diagonal is never the diagonal of the operator: strictly smaller at each dof, by a factor of two at most.", "quantifier": "every mesh, decomposition, steps, velocity, pressure, eigenvalue and eigenvector, 2D and 3D", "why_tests_cant": "bounds uniform in the mesh size and in the vectors; a test sees one mesh", "anchors": ["cafes/problem/stokes.hpp:setPMMSolver", "cafes/problem/stokes.hpp:stokes", "cafes/fem/operator.hpp:strain_tensor_mult", "cafes/fem/operator.hpp:laplacian_mult", "cafes/fem/operator.hpp:diag_laplacian_mult", "cafes/fem/operator.hpp:diag_mass_mult", "cafes/fem/bc.hpp:set_dirichlet_impl"]}
{"id": "C99", "title": "Velocity operator of the conjugate gradient smoothers", "statement": "The velocity block that the Stokes solver hands to the conjugate gradient smoothers (Laplacian or strain tensor, with the rows of the Dirichlet conditions) maps every vector vanishing at the constrained dofs to such a vector and is symmetric positive definite on those vectors (Laplacian: each component is held on some wall; strain tensor: one wall holds all components), and the diagonal handed to the Jacobi preconditioner is strictly positive at every dof. On all vectors it is never symmetric as soon as a component has a free node: there are u, v with (v, A u) < 0 = (u, A v), so conjugate gradients are only justified for iterates whose constrained entries are exact.", "quantifier": "for every 2D or 3D mesh with periodic or bounded directions, every distribution over processes, every positive step, every set of Dirichlet conditions and every pair of vectors", "why_tests_cant": "A test compares the operator on some vectors of one mesh; symmetry and definiteness range over all vectors, all meshes and all sets of conditions.", "anchors": ["cafes/problem/stokes.hpp: setPMMSolver", "cafes/fem/matrixFree.hpp: diag_block_matrix", "cafes/fem/bc.hpp: set_dirichlet", "cafes/fem/operator.hpp: laplacian_mult, strain_tensor_mult, diag_laplacian_mult"]}
{"id": "C100", "title": "Force and velocity operators, scalars by reference, integer positions", "statement": "The operators of forces and velocities are the componentwise operations their symbols denote. The compound operators of positions and vectors take their scalar by reference: a op= a[k] applies a[k] to the components up to k and the already modified a[k] to the later ones, so a -= a[k] and a /= a[k] leave the later components unchanged; it is right exactly when k is the last component (or, for -=, a[k]=0), while the free functions p op p[k] are always right. Conversion of a position to integers truncates towards zero, floor and ceil are exact in every component, and conversion agrees with floor exactly on nonnegative or whole components.", "quantifier": "for every dimension, vector, scalar, component and operation", "why_tests_cant": "The result depends on aliasing of an argument with the object and on the sign of each component, for all values in a continuum.", "anchors": ["cafes/particle/physics/force.hpp: force, operator*, operator+, operator-", "cafes/particle/physics/velocity.hpp: velocity::operator+=", "cafes/particle/geometry/position.hpp: position, ceil, floor", "cafes/particle/geometry/vector.hpp: operator*=, operator/="]}
{"id": "C101", "title": "NtoD driver balances the forces", "statement": "The operator NtoD gives to its Krylov solver is linear in the velocities and does not depend on the state of the objects. Whatever that state, setup_RHS then solve leave in the particles velocities for which the forces and torques exerted by the fluid (control part and singular part) equal minus those of the singular source of the velocities the particles had before: they balance when the particles were at rest, and otherwise (or on a second call) do not. With use_sing off the last flow is the DtoN flow, without singular source, of particles moving with these velocities, so its control forces do not balance the singular ones.", "quantifier": "for all linear pieces, boundary data and sources, every exact control solver linear in its right-hand side, every exact velocity solver, every initial state; provided the DtoN problems and the balance are solvable", "why_tests_cant": "A test runs one configuration from a fresh object; the claim is over all states, velocities and histories, and tells which flags are live during each application.", "anchors": ["cafes/problem/ntod.hpp: NtoD_matrix, NtoD::setup_RHS, NtoD::solve", "cafes/problem/dton.hpp: DtoN::setup_RHS, DtoN::solve", "cafes/particle/forces_torques.hpp: forces_torques_with_control"]}
{"id": "C102", "title": "Volume, surface and rotation constants of circles and spheres", "statement": "For a circle or a sphere, volume() is the Lebesgue measure of the set of points it contains and surface_area() the measure of its surface; Ci_R() is the inverse of the mean over these points, and Cd_R() of the mean over its surface, of the inertia tensor about the centre (isotropic in 3D, mean square distance in 2D), which are the factors needed to recover the angular velocity from a mean moment.", "quantifier": "for every centre, every radius > 0 and every rotation", "why_tests_cant": "Areas and moments are integrals over a continuum of points, for all radii.", "anchors": ["cafes/particle/geometry/circle.hpp: surface_area, volume, Cd_R, Ci_R", "cafes/particle/geometry/sphere.hpp: surface_area, volume, Cd_R, Ci_R", "cafes/particle/geometry/super_ellipsoid.hpp: contains"]}
{"id": "C75", "title": "The singular velocity carries the relative normal velocity of the particles across the gap", "statement": "In the frame of the mesh, at facing points of the two osculating paraboloids, get_u_sing is along the line of centres: in the plane it is minus half the opening velocity (v2-v1).n times the cut-off on the first particle and plus half of it (plus explicit terms in the derivatives of the cut-off) on the second, so at the two poles the jump is exactly the relative normal velocity, and beyond the cut-off radius both walls are at rest. In space, whenever the contact frame is orthonormal, the jump has the opposite sign: particles that approach get the singular flow of particles that separate. A velocity common to both particles changes nothing.", "quantifier": "every pair of balls with a positive gap, any radii, positions, velocities, mesh step; every facing pair of points", "why_tests_cant": "continuum of positions, velocities and points; a sign error is invisible to magnitude tests", "anchors": ["cafes/particle/singularity/singularity.hpp:construct_base", "cafes/particle/singularity/singularity.hpp:get_u_sing", "cafes/particle/particle.hpp:velocity_diff"]}
{"id": "C103", "title": "Least dissipation and reciprocal theorem", "statement": "A solution of the discrete Stokes system (strain or Laplacian form, 2D and 3D) has the least net energy, half the integral of the dissipation of the finite element velocity minus the work of the forces, among all the velocities with the same imposed values and the same divergence rows; the excess of a competitor is exactly half the dissipation of the difference. When the walls hold the flow and the system is solvable, an admissible velocity of least net energy satisfies the momentum equations with some pressure. For any two flows the work of the nodal forces of one in the motion of the other (plus pressure against divergence) is symmetric.", "quantifier": "every mesh, periodicity, distribution over processes, boundary conditions, right-hand side, competitor", "why_tests_cant": "a minimum over all admissible velocities of an arbitrary mesh", "anchors": ["cafes/fem/matrixFree.hpp: stokes_matrix", "cafes/fem/operator.hpp", "cafes/fem/bc.hpp"]}
{"id": "C104", "title": "From the command line to the discrete problem", "statement": "Each option of the command line sets the number of points, length or periodicity of the direction it is named after and nothing else (17 points, length 1, not periodic by default). For every command line with at least 2 points per direction, whatever the periodicity, velocity and pressure cells cover exactly the requested lengths. With enough points, positive lengths and any distribution over processes, the system of the stokes object (matrix-free or -assembling, with or without -strain_tensor) is solvable exactly when the flux is balanced, its solution is unique up to a constant pressure, and is the exact flow when the data are those of a polynomial Stokes flow.", "quantifier": "every option database, distribution over processes, boundary conditions, polynomial flow", "why_tests_cant": "all combinations of options, sizes and distributions", "anchors": ["cafes/problem/options.hpp: process_options_", "cafes/problem/stokes.hpp: stokes::stokes", "cafes/fem/mesh.hpp: createMesh"]}
{"id": "C105", "title": "Triangulation of a set of points", "statement": "Qhull receives the coordinates of the points one after the other, whatever their number, and for every answer made of triangles the 3D function returns the vertex ids of all the facets in their order. The 2D function returns those of the facets flagged tricoplanar followed by one triangle (0,0,0) for every other facet, so it loses every facet that Qhull did not have to cut. A facet of more than three vertices is written out of bounds.", "quantifier": "every list of points, every answer of Qhull", "why_tests_cant": "sizes are unbounded, and general position decides which facets are flagged", "anchors": ["cafes/particle/geometry/triangulation.hpp"]}
{"id": "C106", "title": "SEM reports the mean velocity of the fluid on the surfaces, and the forces of its control", "statement": "After a SEM solve, get_new_velocities leaves in each particle, on every process, the mean of the computed fluid velocity over the samples of its surface (the velocity at their barycentre when the flow is affine, hence the velocity of the centre for a circle carried rigidly by the fluid), changes nothing else in the particle, and gives the same velocities whatever the number of processes and the distribution of the mesh; get_new_forces_torques gives volume/num times the sum, over the mesh nodes inside the particle, of the control and of its moment about the centre.", "quantifier": "all meshes, decompositions, particles inside the mesh with disjoint interiors, fluid velocities and controls, in 2D and 3D", "why_tests_cant": "a test fixes one mesh, one number of processes and one particle; the claim is about every flow, every particle position and every distribution of the surface samples over the processes", "anchors": ["cafes/problem/sem.hpp: SEM::get_new_velocities, SEM::get_new_forces_torques", "cafes/problem/particle_operator.hpp: interp_fluid_to_surf, simple_layer", "cafes/particle/forces_torques.hpp: forces_torques_with_control"]}
{"id": "C107", "title": "Neumann-to-Dirichlet with singularities is a linear problem (plane); positively homogeneous in space", "statement": "In the plane, for particles at given positions, the singular velocity, its gradient, the singular pressure and the singular force of every pair depend linearly on the velocities of the particles, while the existence of a singularity, its cut-off zone and the boxes visited do not depend on them. Hence the singular source added to the fluid right-hand side and the singular forces of all pairs, the rigid motion and the forces and torques of a control are linear maps, so the operator the NtoD driver gives to its Krylov solver is linear and, for particles initially at rest, the velocities found make the forces and torques vanish. In space the fields are not additive (refuted), but multiplying all velocities by a positive number multiplies the singular velocity, gradient, pressure, forces and the source added to the fluid by this number and leaves the zones and boxes unchanged.", "quantifier": "all meshes, decompositions, boundary conditions, particle positions, radii and velocities, pairs, linear fluid solvers and exact Krylov solvers", "why_tests_cant": "Linearity relates all velocities; a run only shows one right-hand side, and a Krylov solver converges to something even when the operator is not linear.", "anchors": ["cafes/problem/ntod.hpp:NtoD_matrix", "cafes/problem/ntod.hpp:solve", "cafes/particle/singularity/singularity.hpp", "cafes/particle/singularity/add_singularity.hpp:add_singularity_in_fluid", "cafes/particle/forces_torques.hpp:forces_torques_with_control"]}
{"id": "C108", "title": "DtoN leaves the flow of least misfit on the particle surfaces", "statement": "The misfit of a flow is the sum over the particles of area / number of surface points times the sum over the surface points of the squared gap between the interpolated fluid velocity and the motion -V + omega x r. Among the flows with the same boundary values and the same forces but for nodal forces inside the particles, a flow has the least misfit if and only if the velocity of the second problem of DtoN is zero at the nodes inside the particles. So a control solves the DtoN equation exactly when its flow has the least misfit; the flow left by setup_RHS and solve has it; a flow of least misfit always exists, and all flows of least misfit have the same velocity at the surface points.", "quantifier": "all meshes, process grids, boundary conditions (closed boxes without net imposed flux, open boxes), sources, particles, both Stokes operators, 2D and 3D, every fluid solver right on the solvable problems, every exact outer solver, all competing nodal forces", "why_tests_cant": "a test compares with a few flows; optimality is over all nodal forces, meshes and particles", "anchors": ["cafes/problem/dton.hpp: DtoN::setup_RHS, DtoN::solve, DtoN_matrix", "cafes/problem/particle_operator.hpp: interp_fluid_to_surf, SL_to_Rhs, compute_y"]}
{"id": "C109", "title": "The singular velocity reaches each surface point once", "statement": "add_singularity_to_surf adds to the value at a surface point x of a particle the singular velocities at x of exactly the close pairs the particle belongs to, when x is in the box of the pair and in its zone, once for each pair, whatever the sharing of the mesh between the processes. The two-dimensional computesingularBC adds to the mesh the singular velocity spread from 2N points of the two facing arcs, with the arc lengths as weights: tested against any velocity it gives the quadrature of the product along the arcs; the points are on the circles of the two particles, within the cut-off distance of the line of the centres. In the plane the zone is made of the points within the cut-off distance of the line of the centres; in space the test is on one tangential coordinate only, so the zone is a band with points at any distance of that line.", "quantifier": "all meshes, process boxes, particles, lists of pairs, surface points, fields on the surfaces, test velocities, singularities", "why_tests_cant": "the calls are commented out in the drivers, and the claim is over all pairs, process boxes and surface points", "anchors": ["cafes/particle/singularity/add_singularity.hpp: add_singularity_to_surf, computesingularBC"]}
{"id": "C110", "title": "NtoD on several processes", "statement": "With NtoD on several processes, a process takes from the vector the velocities of the particles whose box meets its own box and keeps its old ones for all the others. The problem has D+T unknowns for each pair (particle, process it meets), hence the number of a one-process run exactly when no particle meets two processes; a particle crossing the first row of a process meets two. Without close pairs, vectors whose copies agree give the forces of the one-process run, and all results have agreeing copies; but the operator then sends a non-zero vector to zero as soon as a particle meets two processes. With close pairs the singular flow a process builds ignores the new velocity of a particle it does not meet, so that two processes can build it with different velocities (an explicit configuration).", "quantifier": "every number of particles and processes, every mesh, all old velocities and all vectors, every force law", "why_tests_cant": "depends on the cut of the mesh between processes, the positions of the particles and all vectors", "anchors": ["cafes/problem/ntod.hpp: NtoD_matrix, create_Mat_and_Vec, solve", "cafes/particle/forces_torques.hpp: forces_torques_with_control", "cafes/particle/singularity/singularity.hpp: singularity"]}
{"id": "C111", "title": "SEM looks for the flow nearest to rigid motions of the particles", "statement": "The misfit of a flow and of rigid motions of the particles is the sum over the particles of area / number of surface points times the sum over the surface points of the squared difference between the interpolated fluid velocity and V + omega x r. Forces are internal if they act at nodes inside the particles with no resultant and no torque on any of them. For disjoint particles whose surface samples are balanced (disks sampled by the code are), the flow of the control found by SEM, with rigid motions whose velocities are the ones get_new_velocities computes from it, has the least misfit among all the flows obtained by adding internal forces and all the rigid motions. A flow has that property if and only if the velocity of the second problem of SEM is a rigid motion at the nodes inside each particle. A flow that follows rigid motions on the surfaces leaves no residual.", "quantifier": "all meshes, process grids, boundary conditions (closed boxes without net imposed flux, open boxes), sources, disjoint particles with balanced samples and their forces, both Stokes operators, 2D and 3D, every fluid solver right on the solvable problems, every exact outer solver, all competing internal forces and rigid motions", "why_tests_cant": "a test compares with a few flows; optimality is over all internal forces, rigid motions, meshes and particles", "anchors": ["cafes/problem/sem.hpp: SEM::setup_RHS, SEM::solve, SEM_matrix, get_new_velocities", "cafes/problem/particle_operator.hpp: simple_layer, SL_to_Rhs, projection, compute_y"]}
{"id": "C112", "title": "Poincaré inequality and stability with constants independent of the mesh", "statement": "A finite element velocity of the mesh whose components each vanish on one wall of a direction of length at most l satisfies: integral of |u|^2 <= l^2/2 times integral of |grad u|^2. Consequently two solutions of the Stokes problem with the same mesh and the same imposed velocities but different sources f and f' satisfy: integral |grad(u-u')|^2 <= l^2/2 integral |I_h(f-f')|^2 and integral |u-u'|^2 <= (l^2/2)^2 integral |I_h(f-f')|^2, I_h being the nodal interpolation used by set_rhs; with the Laplacian when each component is imposed on one wall of its direction, with the strain tensor when the velocity is imposed on all the walls. The constants do not depend on the number of nodes, the steps or the decomposition.", "quantifier": "all mesh sizes, steps, periodicities with at least one wall, decompositions, imposed velocities, sources and solutions, 2D and 3D", "why_tests_cant": "a test refines a mesh a few times; a constant valid for all meshes and sources is a statement about an infinite family of systems", "anchors": ["cafes/fem/matElem.hpp: getMatElemMass, getMatElemLaplacian, getMatElemStrainTensor", "cafes/fem/rhs.hpp: set_rhs", "cafes/problem/stokes.hpp: setup_RHS"]}
{"id": "C113", "title": "The Stokes problems of the shipped programs are well posed on every mesh", "statement": "With every wall moving in its own plane (driven cavities, boxes at rest, shear boxes), or with the walls moving with a quadratic solenoidal velocity (the analytic tests), the discrete Stokes problem set up by the library has a solution for every source, its velocity is unique at all nodes and its pressure up to a constant, whatever the mesh, the box and the number of processes, and with either viscous operator. A wall whose tangential velocity varies is different: for a lid of velocity ψ in a closed box at rest in 2D the problem has a solution exactly when ψ is equal at the two top corners, in 3D exactly when the values of ψ have the same sum on the interior nodes of the two edges where the lid meets the walls facing its motion (so a lid that stretches has no discrete flow on any mesh), and the solutions of the 2D and 3D analytic tests never have the analytic velocity at all the nodes.", "quantifier": "all mesh sizes, steps, processor layouts, periodic directions (sliding walls), sources, wall velocities of the stated kinds", "why_tests_cant": "a run of the cavity or of the analytic test checks one mesh and a Krylov solver that may hide an incompatible right-hand side; solvability depends on an exact discrete flux for every mesh and wall velocity", "anchors": ["cafes/problem/stokes.hpp: setup_RHS, setup_KSP", "cafes/fem/bc.hpp: set_dirichlet_bc", "tests/cavity2d.cpp", "tests/cavity3d.cpp", "tests/stokes_analytic_2d.cpp", "tests/stokes_analytic_3d.cpp"]}
{"id": "C114", "title": "Operators do not depend on what was computed before, and give back the arrays they take", "statement": "The library works in arrays recycled by PETSc that still hold the data of earlier computations. Whatever these arrays contain and whichever of them are currently held by the caller, each request (viscous operator, its diagonal, Stokes operator, mass matrices, volume source, control forces, surface layer, singular source, addition of the singular fields to the solution, interpolation) returns a result that depends on its arguments alone - also not on the previous content of an output that is overwritten -, leaves every array held by the caller unchanged, and gives back exactly the arrays it took; so any sequence of requests, in any order, gets the answers each request would get alone on fresh arrays.", "quantifier": "all contents and sets of free work arrays, all finite histories of requests, all vectors, mesh sizes, processor layouts, periodicities, boundary conditions, in 2D and 3D", "why_tests_cant": "a test runs on fresh zeroed arrays; a missing initialisation or a leaked array shows only after a particular history of earlier calls", "anchors": ["cafes/petsc/vec.hpp: petsc_vec", "cafes/fem/matrixFree.hpp: diag_block_matrix, diag_diag_block_matrix, stokes_matrix, apply_mass_matrix", "cafes/fem/rhs.hpp: set_rhs", "cafes/problem/particle_operator.hpp: set_rhs_problem, SL_to_Rhs, interp_fluid_to_surf", "cafes/particle/singularity/add_singularity.hpp: add_singularity_in_fluid, add_singularity_to_last_sol"]}
{"id": "C115", "title": "The null space attached to the Stokes matrix is its kernel, and fixes the pressure", "statement": "With -assembling (2D), the vector attached as null space has norm one and is in the kernel of the assembled Stokes matrix with its boundary rows, for every mesh, decomposition, form and declared conditions; with at least one wall and a fine enough mesh the kernel is exactly its multiples, so removing it from any solution gives the one solution whose pressures sum to zero, with the same velocity. The exceptions are characterised: with one process, x periodic and y not, the attached vector is never in the kernel; without walls the uniform velocities are in the kernel too. For the matrix-free operators (2D, 3D), which get no null space, the constant pressures are in the kernel exactly when every wall imposes its normal velocity.", "quantifier": "all mesh sizes, steps, decompositions, periodicities, both viscous forms, all right-hand sides and solutions", "why_tests_cant": "a test runs one mesh with a Krylov solver whose result depends on the start vector when the null space is wrong; that the attached space is the whole kernel is a statement about all vectors on all meshes", "anchors": ["cafes/problem/stokes.hpp: CreatePressureNullSpace, setup of A", "cafes/fem/bc.hpp: SetDirichletOnMat", "cafes/fem/assembling.hpp"]}
{"id": "C116", "title": "Every schedule of the processes ends, without deadlock, with the same results", "statement": "The processes run set_materials and then any sequence of applications of the DtoN operator, applications of the SEM operator and force computations, each on its own memory, interleaved in any order and meeting only in the collective operations (reductions, ghost exchanges, assemblies, fluid solves). Whatever the initial content of the memories, no interleaving deadlocks or runs for ever - although the particle loops take branches that differ from process to process, all the processes reach the same collective operations in the same order with the same counts -, and at the end of every interleaving each process holds exactly its part of the values that the operator defined on whole vectors gives: the result does not depend on the schedule, on earlier calls, or on stale memory.", "quantifier": "all interleavings of the steps of the processes, all histories of calls with all flags and controls, all initial memories, all meshes, decompositions, particles, boundary conditions and fluid solvers, 2D and 3D", "why_tests_cant": "a test sees the few interleavings that the machine happens to produce; a collective call guarded by a local condition, or a read of a ghost value before the exchange, only shows for some particle positions, decompositions and timings", "anchors": ["cafes/particle/particle.hpp: set_materials", "cafes/particle/forces_torques.hpp: forces_torques_with_control", "cafes/problem/particle_operator.hpp: set_rhs_problem, init_problem, interp_fluid_to_surf, simple_layer, SL_to_Rhs, projection, compute_y", "cafes/problem/dton.hpp: DtoN_matrix", "cafes/problem/sem.hpp: sem_matrix, get_new_forces_torques", "cafes/petsc/vec.hpp: global_to_local, local_to_global", "cafes/fem/rhs.hpp: set_rhs"]}
{"id": "C117", "title": "Any iterative method on the matrix-free operators gives the same results on any number of processes under any schedule", "statement": "Take any method built from MatMult with stokes_matrix or diag_block_matrix, apply_mass_matrix, MatGetDiagonal, reductions (VecDot, VecNorm), operations entry by entry, applications of a preconditioner that is a function of its argument, computations and tests on scalars, and loops. Started from the parts of given vectors, whatever is in the ghosted work arrays: no schedule of the processes is longer than a fixed number of steps, none deadlocks, all end with the parts of the vectors that the method computes on undivided vectors, and all processes end with the same scalars. Two runs of the method on two different process grids of the same mesh leave the same value at every node and the same scalars; the residual norm that a process reads is the one of the whole vectors.", "quantifier": "for every mesh with any periodic directions, every two process grids, every Dirichlet condition, strain or Laplacian, 2D and 3D, every such method, all starting vectors, all contents of the work arrays, all interleavings of the processes", "why_tests_cant": "a run tries one interleaving on one process grid with one solver; deadlocks and stale ghosts show up only for particular interleavings, grids and histories", "anchors": ["cafes/fem/matrixFree.hpp: stokes_matrix, diag_block_matrix, diag_diag_block_matrix, apply_mass_matrix", "cafes/petsc/vec.hpp: petsc_vec", "cafes/fem/bc.hpp: SetDirichletOnVec", "cafes/problem/stokes.hpp: solve"]}
{"id": "C118", "title": "Whole runs of DtoN and SEM, on any number of processes under any schedule", "statement": "Run create_Mat_and_Vec, setup_RHS and solve of DtoN (default flags or the user's, with or without singular flows) or of SEM, with any method for the control problem that is built from products with the control operator, reductions, operations entry by entry, computations and tests on scalars and loops. Whatever was in the work arrays of the processes: no schedule is longer than a fixed number of steps, none deadlocks, and at the end of every schedule the processes hold the parts of the control, of its right-hand side and of the fluid vectors, and the flags, which the same calls compute on undivided vectors. The fluid solution they hold is the one of the control they hold: the solution of the fluid problem with the boundary values, the source and that control, plus the singular flow for DtoN when it is asked for.", "quantifier": "for every mesh and process grid, every list of particles and pairs in contact that meets the hypotheses of C116, every fluid solver that is a function of its right-hand side, every such method, all flags, all contents of the memories, all interleavings of the processes, 2D and 3D", "why_tests_cant": "a run tries one interleaving on one process grid with one method; a call that only some processes reach, or a stale ghost value, shows up only for particular interleavings, grids and positions of the particles", "anchors": ["cafes/problem/dton.hpp: create_Mat_and_Vec, setup_RHS, solve_last_problem, solve (145-340)", "cafes/problem/sem.hpp: create_Mat_and_Vec, setup_RHS, solve (132-206)", "cafes/particle/singularity/add_singularity.hpp: add_singularity_to_last_sol (593-643)", "cafes/problem/particle_operator.hpp: init_problem, compute_y"]}
{"id": "C119", "title": "Files of save_VTK under every interleaving and at every crash point", "statement": "Whatever the interleaving of the processes and whatever the implementation of MPI_Gather (which may let a process go before the root has received), a call of save_VTK never blocks and ends after a number of steps known in advance; at the end each process has written its two .vts files and the two .pvts collections name exactly the pieces of all the processes, in the order of the ranks. When there was no older collection on the disk and the run is killed at any moment: in 3D a reader who finds a collection complete finds all the pieces it names, complete and with the announced extents; in 2D this holds for the velocity, but not for the pressure: _pressure.pvts can be complete while no other process has written its piece, because in 2D the processes write their files after the gathers. Over older files there is a moment when the older collection is complete and a piece is cut.", "quantifier": "all numbers of processes, all distributions of the grid, all contents of the fields, all earlier contents of the disk, all interleavings, all implementations of MPI_Gather, all moments of a crash", "why_tests_cant": "A test sees one schedule and a run that ends; the hole of the 2D version needs a particular schedule and a kill between two writes.", "anchors": ["cafes/io/vtk.hpp:save_VTK (2D, 79-262)", "cafes/io/vtk.hpp:save_VTK (3D, 441-617)"]}
{"id": "C120", "title": "What SEM tells its user, on any number of processes and under any schedule", "statement": "A session with SEM (create_Mat_and_Vec, setup_RHS, solve with any method for the control problem, then get_new_velocities and get_new_forces_torques any number of times and in any order) never blocks and ends after a bounded number of steps, whatever the schedule. At the end all the processes have been told the same velocities, forces and torques: the velocity of a particle is the mean of the final Q1 velocity over the points of its surface, and the forces and torques are those of the final control. The reports change neither the control, nor the fluid solution, nor the flags; the velocities they write into the particles of the context are read by no part of SEM.", "quantifier": "all meshes, distributions over processes, particles, fluid solvers, methods for the control problem (products, reductions, entrywise operations, tests on scalars), lists of reports, schedules and earlier contents of the memories", "why_tests_cant": "The reports combine ghost exchanges and reductions; a test sees one distribution and one schedule.", "anchors": ["cafes/problem/sem.hpp:get_new_velocities (210-238)", "cafes/problem/sem.hpp:get_new_forces_torques (240-260)", "cafes/problem/sem.hpp:create_Mat_and_Vec, setup_RHS, solve", "cafes/particle/forces_torques.hpp:forces_torques_with_control", "cafes/problem/particle_operator.hpp:interp_fluid_to_surf, simple_layer"]}
{"id": "C121", "title": "The boundary conditions imposed are the rows the user wrote, exactly when there is a row for every wall", "statement": "`make_bc` / `dirichlet_conditions` copies the rows of the list in order, one per face, and stays in its storage exactly when there are at most 2d rows. What is then imposed on a right-hand side or a vector depends on the rows only, not on what the memory held before, exactly when there is a row for both walls of every non periodic direction; then the value at a node is that of the last row for a wall containing the node that has a condition for the component, and the entry is unchanged when there is none. A wall without a row can take the values of any function (as with the four rows of tests/stokes.cpp in 3D, unless the third direction is periodic).", "quantifier": "every dimension, list of rows, previous content of the memory, grid, decomposition, order of the processes, mesh size, vector, node and component", "why_tests_cant": "a test sees one content of uninitialised memory, often null; the dependence shows only for other contents, and the sufficient condition ranges over all of them", "anchors": ["cafes/fem/bc.hpp: dirichlet_conditions, make_bc, set_dirichlet_impl, SetDirichletOnRHS, SetDirichletOnVec, SetNullDirichletOnRHS", "tests/stokes.cpp: make_stokes"]}
{"id": "C122", "title": "Rounding errors of the matrix-free operators do not grow with the mesh or the number of processes", "statement": "In floating point (each addition and product exact up to a relative error u, e.g. binary arithmetic with p digits and u = 2^-p), each entry of the product with a shell matrix differs from the exact product with the same element matrices by at most ((1+u)^k - 1) times the sum of the absolute values of the terms of that entry, with k = 26 (Laplacian, mass, 2D), 92 (3D), 42 and 220 (strain), 78/82 (Stokes velocity/pressure, 2D), 436/676 (3D), whatever the mesh, the decomposition, the values and the order in which the values of the processes are added; entries held by a Dirichlet condition are exact. So two runs on different decompositions differ by at most twice this bound. The diagonal given to the Jacobi preconditioners has, for element matrices with a nonnegative diagonal, a relative error of at most (1+u)^k - 1 with k = 14 (2D), 36 (3D) in each entry, so it is positive when the diagonal of the element matrix is.", "quantifier": "every arithmetic satisfying the standard model, mesh, periodicity, decomposition, arrival order of the ghost contributions, element matrices, boundary conditions, vectors, node and component", "why_tests_cant": "a test compares a few decompositions on one machine up to a chosen tolerance; the bound must hold for every vector, arrival order and arithmetic, and be independent of the number of processes", "anchors": ["cafes/fem/operator.hpp: kernel_diag_block, kernel_tensor_block, kernel_diag_diag_block, kernel_off_diag_block, diag_block_mult, diag_diag_block_mult, off_diag_block_mult", "cafes/fem/matrixFree.hpp: diag_block_matrix, diag_diag_block_matrix, stokes_matrix", "cafes/petsc/vec.hpp: local_to_global"]}
{"id": "C123", "title": "Files of save_hdf5 at every moment of a sequence of calls", "statement": "A sequence of calls of save_hdf5 on any number of processes never blocks and ends after 2n+6 steps per call; then the .h5 file of each call holds every velocity and pressure value at its place in natural order (slowest direction first), nothing else, and the .xdmf file is the description of the mesh, both the same on every decomposition. Whenever the run is killed, if the description of a call has been touched at all, the data file of that call is closed and complete; files no call names are untouched. Finding: a call over the files of an earlier one destroys the old data while the old description is still complete.", "quantifier": "every number of processes, decomposition, interleaving, crash point, initial content of the disk, sequence of calls, fields and names", "why_tests_cant": "a test sees the files after a complete run of one interleaving; the claim is about every moment at which the run may be killed, every interleaving and every decomposition", "anchors": ["cafes/io/hdf5.hpp: save_hdf5, create_xdmf"]}
{"id": "C124", "title": "The preconditioner of setPMMSolver has a mesh-independent real spectrum", "statement": "The solver set by setPMMSolver for the matrix-free Stokes system preconditions with: division of the pressure residual by the diagonal of the pressure mass operator (step 2h), then a velocity solve of the velocity residual minus the gradient of that pressure. Whatever the velocity solver does, the velocity rows of the system applied to the preconditioned residual miss the residual by exactly what the velocity solver leaves of its right-hand side, so with its tolerance 1e-2 they miss it by at most a hundredth of the norm of that right-hand side. If the velocity solver is exact and the velocity is imposed on all the walls, every complex eigenvalue of the preconditioned Stokes system is real and non-negative, and at most 9/4 (2D) or 27/8 (3D) with the Laplacian, 9/8 (2D) or 27/16 (3D) with the strain tensor. Whatever the boundary conditions (open walls, free components), they are still real, non-negative and at most 9/2 (2D) or 81/8 (3D) with the Laplacian, 9/4 (2D) or 81/16 (3D) with the strain tensor. On the residuals without velocity part the preconditioned system is symmetric and positive for the product weighted by the inverse of the diagonal of the mass. The eigenvalue 0 occurs only for the constant pressures, and (when all the normal components are imposed) it does occur for them.", "quantifier": "all mesh sizes, steps, periodicities, distributions over the processes, boundary conditions, residuals, and complex eigenvalues", "why_tests_cant": "A spectral bound independent of the mesh is a statement on infinitely many matrices; a test computes the eigenvalues of a few of them.", "anchors": ["cafes/problem/stokes.hpp: setPMMSolver, stokes::stokes", "cafes/fem/matrixFree.hpp: stokes_matrix, diag_diag_block_matrix", "cafes/fem/operator.hpp: mass_mult, diag_mass_mult, B_and_BT_mult"]}
{"id": "C125", "title": "Localisation of the particles on the mesh in floating point", "statement": "In floating point (results rounded to nearest, e.g. double): the integer box of a particle contains every grid node of its real bounding box, boundary included, with no margin; the scan for the nodes inside a particle tests each node of its box once, at a point whose coordinates are those of the node up to one rounding per node scanned, so every node that is farther than that from the surface is classified right, and the same way on every decomposition; each recorded surface point is before the end of its cell and after its start up to one rounding, and its cell and offset give the point back up to one rounding of the step and three of the coordinate. The margin is needed: with step 1./6 in double a node exactly at distance 1 is classified differently when the scan starts at another node.", "quantifier": "every rounding with relative error u, increasing and exact on the integers used; every real box, mesh step, integer box of nonnegative indices, membership test, list of surface points", "why_tests_cant": "the accumulated coordinate depends on the step, on the start of the box of the process and on the rounding of every sum; tests see a few meshes on a few processes", "anchors": ["cafes/particle/geometry/super_ellipsoid.hpp: bounding_box(h)", "cafes/particle/particle.hpp: find_fluid_points_insides, find_surf_points_insides"]}
