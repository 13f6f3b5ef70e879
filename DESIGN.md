# Formal model of gouarin/cafes in Lean 4 — design

## What is modelled, and how

* **Numbers.** `double` arithmetic is modelled by exact field arithmetic: definitions are
  generic over a field `K` where possible (so they compute over `ℚ`), theorems are stated over `ℝ`
  (or any ordered field). NaN, overflow and underflow of `double` are **not** modelled, and rounding only in Model/Rounding
  and Model/RoundingGeom (C125: the localisation of the particles with every operation rounded;
  C122: the matrix-free products with every sum and product rounded under the standard model
  `fl(x op y) = (x op y)(1+δ)`, in any order of the assembly; element matrices taken as given).
  `int` indices are `ℤ`; places where the C++ type matters (`std::size_t` loop indices, truncating
  conversion `double → int`) are modelled explicitly (truncation, unsigned wrap-around).
* **Positions / boxes.** `position<T,D>` is `Fin D → T`; `box` is a pair of positions.
* **Fields.** A PETSc vector attached to a DMDA is a function `node → dof → K`; kernels become
  functions returning the updated field; loops are folds over the list of visited points.
* **PETSc / MPI.** Parameters with a recorded contract: a DMDA is a Cartesian product of 1-D
  ownership splits (list of positive sizes summing to the global size); `DMLocalToGlobal(ADD)` sums
  the local contributions of all processes; `MPI_Allreduce(SUM)` is the sum over processes;
  `DMGlobalToLocal` copies the owner's value to ghosts. Concurrency (Model/Spmd): the processes are interleaved step
  by step; a collective operation takes place when all the processes wait in one of the same kind with the same count. KSP solvers are not modelled: where a
  property needs one it is a hypothesis of the theorem (the solver returns a solution of the system
  it is given).
* **Undefined behaviour** (index out of bounds, uninitialised reads, division by zero) is an
  explicit outcome (`none`/`Option`, or a separate predicate) where a property talks about it.

Layout: `lean/Verif/Model/*` the model (each definition cites file:lines), `lean/Verif/Spec/*` the
independent specifications, `lean/Verif/Lemmas/*` helper lemmas, `lean/Verif/Props/*` the property
theorems with non-vacuity examples. `tools/` holds the scripts that produced the element tables and
the singular fields (`gen_tables.py`, `gen_sing.py`, a transcription of the C++ expressions), the
manifest (`manifest.py`) and this document (`design.py`).

## Trusted base

* Lean 4.33.0's kernel; the axioms `propext`, `Classical.choice`, `Quot.sound` only
  (checked by vcheck on every theorem). No own axioms, no proof by compiled code.
* The reading of the C++ source into the model (citations in every definition).
* The contracts of PETSc/MPI listed above; exact arithmetic instead of floating point (except C122, C125).

### Modelled files

| file in /repo/cafes | model | not modelled in it |
|---|---|---|
| algorithm/iterate.hpp | Iterate | kernels that modify their position |
| particle/geometry/{box,position,vector,cross_product,quaternion,linspace,uniform_sampling,super_ellipsoid,circle,sphere}.hpp | Box, Geometry, Sampling3 | printing |
| particle/physics/{force,velocity}.hpp | Geometry | printing |
| fem/{mesh,quadrature}.hpp | Mesh, Quadrature | DM hierarchies for multigrid beyond the sizes |
| fem/matElem.hpp | MatElem, Tables | |
| fem/{operator,matrixFree}.hpp | Operator, SpmdMat (as programs of the processes), Rounding (with rounded arithmetic) | |
| fem/{bc,rhs}.hpp | Dirichlet, MakeBC, StokesRhs | |
| fem/assembling.hpp | Assemble, Prealloc | 3D assembling of the tensor (not in the code) |
| petsc/vec.hpp | Operator, Post (`at`), Work (arrays taken, recycled and given back) | move constructor (never called) |
| particle/{particle,forces_torques}.hpp | Particle | |
| particle/singularity/truncation.hpp | Trunc | |
| particle/singularity/UandPNormal.hpp | SingNormal | |
| particle/singularity/UandPTang.hpp | SingTang | |
| particle/singularity/singularity.hpp | Singularity | |
| particle/singularity/add_singularity.hpp | AddSing, SurfSing | the commented-out output functions |
| problem/particle_operator.hpp | Particle, SpmdOps, SpmdCtl, Report (as programs of the processes) | the ghost exchange of the (zero) pressure part in `set_rhs_problem` |
| problem/{dton,sem}.hpp | Dton, Pieces, SemPost, SpmdCtl, Report (as programs of the processes) | KSP (hypothesis: exact solve) |
| problem/ntod.hpp | Ntod, NtodDriver, NtodPieces, NtodProcs | KSP (as in dton) |
| problem/stokes.hpp | StokesRhs, Multigrid, Options (constructor), NullSpace (CreatePressureNullSpace), Pmm (action of the preconditioner of setPMMSolver) | the other PETSc solver settings; the inner GCR/multigrid iterations (a parameter of Pmm) |
| problem/options.hpp | Options | the option database of PETSc (arbitrary) |
| particle/geometry/triangulation.hpp | Triangulation | Qhull (an arbitrary function to lists of facets) |
| posttraitement/interpolation.hpp | Post, PostProcs | the choice of the fine ownership by PETSc (arbitrary) |
| io/hdf5.hpp | Post, Hdf5Save (as programs of the processes) | the HDF5 library (contract in Model/Hdf5Save), I/O errors, `save_hdf5` in 3D (does not compile: `create_xdmf` takes two steps) |
| io/vtk.hpp | Vtk, VtkSave | the VTK library, single precision of the points, buffers of the operating system |

Not modelled at all: problem/matMult.hpp and problem/context.hpp (dispatch and plain data; their
effect is in the drivers), demos and tests.

## Properties: model, proof, status

| id | property | model and proof | status |
|---|---|---|---|
| C01 | Box traversal is exact | loops as recursive functions over ℤ in any dimension; induction on dimension and loop length | proved |
| C02 | Element boxes of the processes partition the mesh | 1-D ownership splits as lists, product over directions; induction over the list of sizes | proved |
| C03 | Velocity and pressure grids are nested on every process | 1-D ownership splits as lists, product over directions; induction over the list of sizes | proved |
| C04 | Element kernels stay inside the ghosted patch | node lists, ghost windows, local indices; integer arithmetic | proved |
| C05 | Local sizes add up to the global size | 1-D ownership splits as lists, product over directions; induction over the list of sizes | proved |
| C06 | P1 integration weights are a partition of unity interpolating the corners | `P1_integration` over a field; ring identities, derivatives (Mathlib `HasDerivAt`) | proved |
| C07 | P1 gradients are the derivatives of the P1 weights | `P1_integration` over a field; ring identities, derivatives (Mathlib `HasDerivAt`) | proved |
| C08 | Interpolation at a surface point is exact on affine fields | `P1_integration` over a field; ring identities, derivatives (Mathlib `HasDerivAt`) | proved |
| C09 | Element node lists | node lists, ghost windows, local indices; integer arithmetic | proved |
| C10 | Laplacian element matrix is the exact integral | element tables over a field; specification with Mathlib interval integrals of the Q1 functions, tensor products | proved |
| C11 | Mass element matrix is the exact integral | element tables over a field; specification with Mathlib interval integrals of the Q1 functions, tensor products | proved |
| C12 | Strain tensor element matrix is the exact integral | element tables over a field; specification with Mathlib interval integrals of the Q1 functions, tensor products | proved |
| C13 | Pressure/velocity element matrix is the exact integral | element tables over a field; specification with Mathlib interval integrals of the Q1 functions, tensor products | proved |
| C14 | Element matrices are symmetric and positive | element tables; symmetry by computation on ℚ tables, positivity by sums of squares | proved |
| C15 | Matrix-free diffusion and mass operators are symmetric and positive | scatter/gather folds over the elements of any mesh and decomposition; bilinear forms as sums over elements | proved |
| C16 | Diffusion annihilates constants (rigid motions) | scatter/gather folds over the elements of any mesh and decomposition; bilinear forms as sums over elements | proved |
| C17 | Mass operator measures the domain | scatter/gather folds over the elements of any mesh and decomposition; bilinear forms as sums over elements | proved |
| C18 | Pressure gradient is minus the adjoint of the divergence | scatter/gather folds over the elements of any mesh and decomposition; bilinear forms as sums over elements | proved |
| C19 | Constant pressures exert no force inside the fluid | scatter/gather folds over the elements of any mesh and decomposition; bilinear forms as sums over elements | proved |
| C20 | Discrete divergence is conservative | scatter/gather folds over the elements of any mesh and decomposition; bilinear forms as sums over elements | proved |
| C21 | Operators do not depend on the domain decomposition | sum over processes of the scatter; independence from the partition of elements | proved |
| C22 | Assembled and matrix-free operators agree | assembled matrix as a map on local indices; comparison with the matrix-free product, entry by entry | proved |
| C23 | Assembled strain tensor agrees with the matrix-free one | assembled matrix as a map on local indices; comparison with the matrix-free product, entry by entry | proved: exact statement proved for every input; the intended claim fails, counterexamples: C23_refuted |
| C24 | Diagonal preconditioner is the diagonal | diagonal kernel; compared with the operator applied to unit vectors | proved |
| C25 | Dirichlet rows are identity rows | fold of faces over the owned boxes; last condition wins; independence from the decomposition | proved |
| C26 | Dirichlet right-hand side values | fold of faces over the owned boxes; last condition wins; independence from the decomposition | proved |
| C27 | Null Dirichlet step | fold of faces over the owned boxes; last condition wins; independence from the decomposition | proved |
| C28 | Dirichlet rows of the assembled matrix | fold of faces over the owned boxes; last condition wins; independence from the decomposition | proved: exact statement proved for every input; the intended claim fails, counterexamples: C28_stride_refuted, C28_null_condition_refuted |
| C29 | Right-hand side assembly | fold of faces over the owned boxes; last condition wins; independence from the decomposition | proved |
| C30 | Box intersection test | box functions over a linear order; order lemmas, witness for the refutation | proved |
| C31 | Overlap and union of boxes | box functions over a linear order; order lemmas, witness for the refutation | proved |
| C32 | Half-open point test is consistent with traversal | loops as recursive functions over ℤ in any dimension; induction on dimension and loop length | proved |
| C33 | Box inclusion test | box functions over a linear order; order lemmas, witness for the refutation | proved: exact statement proved for every input; the intended claim fails, counterexamples: C33_refuted_true, C33_refuted_false |
| C34 | Vector/velocity arithmetic | componentwise definitions; ring identities; refutations by witness | proved: exact statement proved for every input; the intended claim fails, counterexamples: C34_refuted |
| C35 | Cross product laws | componentwise definitions; ring identities; refutations by witness | proved |
| C36 | Rotations are rigid | componentwise definitions; ring identities; refutations by witness | proved |
| C37 | Quaternion normalisation | componentwise definitions; ring identities; refutations by witness | proved: exact statement proved for every input; the intended claim fails, counterexamples: C37_refuted |
| C38 | Bounding box encloses the shape | super-ellipsoid over ℝ with `rpow`; real analysis | proved: exact statement proved for every input; the intended claim fails, counterexamples: C38_counterexample, C38_refuted |
| C39 | Integer bounding box misses no grid node | super-ellipsoid over ℝ with `rpow`; real analysis | proved: exact statement proved for every input; the intended claim fails, counterexamples: C39_refuted |
| C40 | Surface sampling lies on the surface | super-ellipsoid over ℝ with `rpow`; real analysis | proved: exact statement proved for every input; the intended claim fails, counterexamples: C40_refuted |
| C41 | linspace | super-ellipsoid over ℝ with `rpow`; real analysis | proved |
| C42 | Fluid points inside a particle are found exactly | loops of particle.hpp over cells; partition of the nodes between processes, truncation towards zero | proved |
| C43 | Surface points are localised in their cell | loops of particle.hpp over cells; partition of the nodes between processes, truncation towards zero | proved |
| C44 | Surface and radial lists stay aligned | loops of particle.hpp over cells; partition of the nodes between processes, truncation towards zero | proved |
| C45 | Each surface point and interior node is owned once | loops of particle.hpp over cells; partition of the nodes between processes, truncation towards zero | proved |
| C46 | Volume estimate | loops of particle.hpp over cells; partition of the nodes between processes, truncation towards zero | proved |
| C47 | Control vector layout | position of the entries of the control vector by induction over particles and nodes | proved |
| C48 | Control is transferred as a force density | position of the entries of the control vector by induction over particles and nodes | proved |
| C49 | Single layer is self equilibrated | surface and interior sums as folds over processes; finite-sum algebra | proved |
| C50 | Rigid motion subtraction | surface and interior sums as folds over processes; finite-sum algebra | proved: exact statement proved for every input; the intended claim fails, counterexamples: C50_refuted |
| C51 | Surface interpolation and spreading are adjoint | surface and interior sums as folds over processes; finite-sum algebra | proved |
| C52 | Forces and torques | surface and interior sums as folds over processes; finite-sum algebra | proved |
| C53 | Singular force contribution is added to the right particle | surface and interior sums as folds over processes; finite-sum algebra | proved: exact statement proved for every input; the intended claim fails, counterexamples: C53_refuted |
| C54 | NtoD operator indexing | index maps of NtoD; refutation of the 2D torques | proved: exact description of the layout, including the wrong 2D torque index (C54_torques2_refuted is the counterexample to the intended layout) |
| C55 | DtoN operator is linear after set-up | state machine of the driver over call sequences; affine operators; Krylov solver as hypothesis | proved: exact statement proved for every input; the intended claim fails, counterexamples: C55_use_sing_refuted, C55_second_call_refuted |
| C56 | Truncation function | truncation functions; calculus, piecewise definitions | proved: exact statement proved for every input; the intended claim fails, counterexamples: C56_d4_refuted |
| C57 | Cut-off function | truncation functions; calculus, piecewise definitions | proved: exact statements proved for every input; the intended claims fail, counterexamples: C57_refuted, C57_d4_refuted |
| C58 | Contact frame is orthonormal | frames and change of frame as matrices; inner products; chain rule | proved: exact statement proved for every input; the intended claim fails, counterexamples: C58_frame3D_refuted |
| C59 | Cut-off radius bounds | frames and change of frame as matrices; inner products; chain rule | proved |
| C60 | Singular velocity gradients are the derivatives of the singular velocity | transcribed expressions of UandPNormal; `HasDerivAt` of each coded function, field_simp/ring identities between them | proved: exact statement proved for every input; the intended claim fails, counterexamples: C60_normal2D_ux_refuted, C60_normal3D_axis_refuted |
| C61 | Singular velocity is divergence free | transcribed expressions of UandPNormal; `HasDerivAt` of each coded function, field_simp/ring identities between them | proved: exact statement proved for every input; the intended claim fails, counterexamples: C61_normal2D_velocity_refuted, C61_normal3D_axis_refuted |
| C62 | No slip of the singular velocity | transcribed expressions of UandPNormal; `HasDerivAt` of each coded function, field_simp/ring identities between them | proved: exact statement proved for every input; the intended claim fails, counterexamples: C62_normal2D_second_refuted, C62_normal3D_second_refuted |
| C63 | Gradient tensor change of frame | frames and change of frame as matrices; inner products; chain rule | proved: exact statement proved for every input; the intended claim fails, counterexamples: C63_normal2D_refuted, C63_normal3D_axis_refuted |
| C64 | Number of multigrid levels | level loops as fuelled recursion / relation; arithmetic of sizes, non-termination as absence of a stopping index | proved |
| C65 | Level matrices | level loops as fuelled recursion / relation; arithmetic of sizes, non-termination as absence of a stopping index | proved: exact: terminates with the right level on square plane hierarchies; C65_rectangle_refuted and C65_cube_never show where the loop does not end |
| C66 | Preallocation covers the assembly | row by row count of the entries inserted by the assembly against the preallocated numbers | proved |
| C67 | Mass matrix of the velocity/pressure pair | drivers over the modelled operators | proved |
| C68 | Diagonal assembling | drivers over the modelled operators | proved: exact statement proved for every input; the intended claim fails, counterexamples: C68_refuted |
| C69 | Interpolation on a refined grid | 2D interpolation kernel as overwriting fold; sizes written in the XDMF file | proved |
| C70 | XDMF description | 2D interpolation kernel as overwriting fold; sizes written in the XDMF file | proved |
| C71 | Particle set-up can be repeated | loops of particle.hpp over cells; partition of the nodes between processes, truncation towards zero | proved: exact statement proved for every input; the intended claim fails, counterexamples: C71_num_refuted |
| C72 | A constant control density gives the particle's weight | position of the entries of the control vector by induction over particles and nodes | proved: exact statement proved for every input; the intended claim fails, counterexamples: C72_refuted |
| C73 | Surface transfer is conservative and consistent | surface and interior sums as folds over processes; finite-sum algebra | proved |
| C74 | Projection recovers the particle mean of a field | surface and interior sums as folds over processes; finite-sum algebra | proved |
| C75 | The singular velocity carries the relative normal velocity of the particles across the gap | coordinates of the facing points in the contact frame (orthonormal base, Parseval), then the wall values of C62; counterexample with two unit spheres for the spatial sign | proved: exact statement proved for every input; in space the intended claim fails by its sign, counterexample: C75_jump3D_refuted |
| C76 | The mesh box scanned for a contact covers the whole zone where the singular fields act | corner box of the contact zone; trigonometry of the caps | proved |
| C77 | Every pair of particles is treated exactly once | pair loops with unsigned indices; quadrature sums; weak form on the cells of the box; ownership of the added values | proved: exact statement proved for every input; the intended claim fails, counterexamples: C77_no_particle_refuted |
| C78 | The singular forces are the quadrature of the singular stress over the contact cap | pair loops with unsigned indices; quadrature sums; weak form on the cells of the box; ownership of the added values | proved: exact statement proved for every input; the intended claim fails, counterexamples: C78_2D_refuted, C78_3D_refuted |
| C80 | The singular source term is the weak form of the singular fields | pair loops with unsigned indices; quadrature sums; weak form on the cells of the box; ownership of the added values | proved |
| C81 | The singular fields added back to the solution do not depend on the decomposition | pair loops with unsigned indices; quadrature sums; weak form on the cells of the box; ownership of the added values | proved: exact statement proved for every input; the intended claim fails, counterexamples: C81_refuted |
| C83 | SEM leaves the flow of its control | state machine of the driver over call sequences; affine operators; Krylov solver as hypothesis | proved: exact statement proved for every input; the intended claim fails, counterexamples: C83_refuted |
| C84 | Repeated set-up of the fluid right-hand side | set-up functions iterated | proved |
| C85 | Box length and corners | box functions over a linear order; order lemmas, witness for the refutation | proved |
| C86 | The Stokes operator is the weak form of the Stokes problem | Stokes operator tested against a discrete field equals the integral of the weak form (interval integrals) | proved |
| C87 | What DtoN and SEM leave to the user | concrete pieces put in the abstract drivers; affine maps; solver as hypothesis | proved |
| C88 | Singular pressure and velocity satisfy the lubrication equation | transcribed expressions of UandPNormal; `HasDerivAt` of each coded function, field_simp/ring identities between them | proved |
| C89 | VTK files reproduce the computed fields | files as lists in the order of insertion; a reader's index formula as specification | proved: proved for every file and for collections on non periodic meshes; on periodic meshes the intended claim fails, counterexample for every such mesh: C89_periodic_refuted |
| C90 | Particle files hold the particles | files as lists in the order of insertion; a reader's index formula as specification | proved: exact statement proved for every input; in 3D without forces the intended claim fails: C90_height_refuted |
| C91 | The planar tangential singular field solves the lubrication problem | real analysis: HasDerivAt of the coded formulas, field identities | proved |
| C92 | The tangential singular field in space solves the lubrication problem, with the two curvatures exchanged | real analysis: HasDerivAt of the coded formulas; closed forms of the components valid on the axis; boundary values and field identities by algebra | proved: exact statement proved for every input; the intended no-slip claim fails for unequal curvatures (C92_noslip3D_refuted) and dxuz on the axis is wrong (C92_axis3D_refuted) |
| C93 | The discrete Stokes problem determines the velocity, and the pressure up to a constant | energy of the difference is zero (C18 adjointness), so its gradient (strain) vanishes cell by cell; zero spreads from the held wall to all nodes; the kernel of the tensor-product pressure gradient is computed from one-dimensional mass and derivative operators; for the sharpness, the alternating pressure in two directions of one cell is in the kernel (the one-dimensional mass operator vanishes on it at the middle node) | proved |
| C94 | The discrete Stokes problem is solvable exactly when the imposed flux matches the divergence source | total divergence as a wall flux by adjointness and the gradient of a constant pressure, computed direction by direction; kernel of dimension one (C93) and range in a hyperplane, then rank-nullity on the space of grid values | proved |
| C95 | Sampling of the surface of a 3D particle | sampling loops as inductive relations, `std::vector` as elements and capacity with any growth policy; capacity invariant; rings reduced to the 2D sampling (C40) | proved: The English claim states what the code does: undefined behaviour under the usual growth policies (C95_undefined), points off the surface when the exponents differ (C95_off), repeated points (C95_repeated); the intended list is characterised by the other theorems. |
| C96 | Polynomial Stokes flows are computed exactly | each element operator as a tensor product of one-dimensional stencils that are exact on monomials; flow specified with Mathlib's derivative; uniqueness from C93 | proved |
| C97 | Interpolation on a refined grid with several processes | each process as a fold of writes whose values do not depend on the cell; owner of a fine node unique; the blocks of the fine mesh are arbitrary (choice of PETSc) | proved |
| C98 | Spectral equivalence of the operators and of their preconditioners | discrete integration by parts one direction at a time (1D matrices of u'v and uv' are opposite away from the walls), then Gram matrices; diagonals cell by cell (pairs of a positive matrix, row sums) | proved |
| C99 | Velocity operator of the conjugate gradient smoothers | C25 removes the Dirichlet rows against vectors vanishing there; C15 (symmetry), Lemmas/Propagate (definiteness once held) and C24 (diagonal); the asymmetry is witnessed by the indicators of the free and of the constrained dofs of a component, whose sum is in the kernel. | proved |
| C100 | Force and velocity operators, scalars by reference, integer positions | Induction over the index list of the in-place loop, with the scalar read from the array being modified; floor and ceil by the order properties of the integer part. | proved |
| C101 | NtoD driver balances the forces | State machine with the flags; the constant part of the DtoN operator splits into data, rigid motion and singular source; exactness of the solvers then gives the residual; counterexamples on the smallest problem. | proved: exact statement proved for every input; the intended claims fail, counterexamples: C101_moving_refuted, C101_last_refuted. The templates do not instantiate as written (types of forces): modelled as they act once the types agree, see Model/NtodDriver.lean |
| C102 | Volume, surface and rotation constants of circles and spheres | contains is turned into a Euclidean ball; volume of balls, polar coordinates (surface measure of the unit sphere) and invariance under permutations and reflections of the coordinates give the second moments. | proved |
| C103 | Least dissipation and reciprocal theorem | Orthogonality of the momentum rows to the differences of admissible velocities, from the adjointness of gradient and divergence (C18), the symmetry and positivity of the velocity block (C15) and the identity of the block with the integrals (C86); converse by definiteness (C93). | proved |
| C104 | From the command line to the discrete problem | Direct computation for the options; composition with C93, C94, C96 and C28 for the system built by the constructor. | proved |
| C105 | Triangulation of a set of points | Induction on the points (coordinate array) and on the facets (triangles written so far followed by zero triangles). | proved: exact statement proved for every input; the intended 2D claim fails, counterexample: C105_delaunay2_refuted |
| C106 | SEM reports the mean velocity of the fluid on the surfaces, and the forces of its control | Model/SemPost.lean over the pieces of Model/Pieces.lean. The surface points held by the processes are a permutation of the samples (C45), so the reduced mean is the mean of the Q1 field (C06); affine exactness from C73, barycentre of the circle samples from C49, forces from C52 with the count of C46. | proved |
| C107 | Neumann-to-Dirichlet with singularities is a linear problem (plane); positively homogeneous in space | Model/NtodPieces instantiates the abstract NtoD driver with the models of the particle operators, forces and singular sources; linearity of each piece by induction on the loops (cells, pairs, particles) from the linearity of the closed-form fields in UN and UT; C101 then applies. The 3D counterpart is refuted on two spheres with an oblique axis. In space (Props/SingHomog3): every field is a factor times its value for unit approach velocity, and the frame only depends on the direction of the relative velocity. | proved: linearity and instantiation proved in the plane; in space the intended claim fails for the singular velocity, counterexample: C107_additive3_refuted. The copy of velocities is modelled as on one process |
| C108 | DtoN leaves the flow of least misfit on the particle surfaces | The misfit is a quadratic function of the flow; its slope along a flow driven by nodal forces is, by the reciprocity of the discrete Stokes operator (C103) and the duality of interpolation and spreading (C51, C87), the work of these forces in the flow of the second problem. Zero velocity inside the particles is therefore the optimality condition; existence by least squares in a finite dimensional space; the driver by C55. The solvability of the control equation stays a hypothesis of the driver theorem (the control enters through the mass matrix, so it is not implied by existence); C108_control says it is equivalent to a control reaching the least misfit. | proved |
| C109 | The singular velocity reaches each surface point once | Loops as folds; the clipped box in physical coordinates contains a held point exactly when the box of the pair does, because the cell of the point is in the box of the process; a skipped pair contributes nothing (C30). Arcs: the fold evaluated against a test field, the frame of the pair is orthonormal (C58), trigonometry. | proved |
| C110 | NtoD on several processes | Model/NtodProcs.lean: the copy loops with their counters, one array per process, DtoN being any force law. Closed forms of the loops by induction on the particles; C110_kernel by finite dimension (not surjective, hence not injective); explicit mesh and discs for the refutation. | proved: exact statement proved; C110_sing_refuted shows that processes can disagree on a close pair |
| C111 | SEM looks for the flow nearest to rigid motions of the particles | simple_layer removes from the interpolated velocity its mean rigid motion, and on balanced samples the rest does no work in rigid motions (C49), so the misfit with any motions is that with the mean ones plus a square. The slope along a flow driven by forces delta is, by reciprocity (C103), the work of delta in the second flow w, zero when w is rigid inside the particles and delta internal. Conversely, if all the slopes vanish take delta = w minus its best rigid motion. The driver by C83; the solvability of the control equation stays a hypothesis, met by the example. The flow meant is the one of the control found; the fluid solution left in the object differs from it (C83). | proved |
| C112 | Poincaré inequality and stability with constants independent of the mesh | On each line of nodes in the direction of the wall the value is a sum of differences (Cauchy-Schwarz); the cell matrices are tensor products (C10, C11), written as sums of squares in the transverse directions, so the bound on the lines sums to the bound on the integrals. The difference of the two solutions vanishes at the imposed dofs and has no discrete divergence, hence its energy is the work of the mass matrix applied to the difference of the nodal sources (C29, C103); Young's inequality for the mass form and, for the strain, C98 give the estimates. Example with existence from C94. | proved |
| C113 | The Stokes problems of the shipped programs are well posed on every mesh | The solvability criterion of C94 is that the trapezoid flux of the wall values vanishes. For sliding walls the boundary nodes are paired across the box (last applied face decides the value at edges); for quadratic velocities the trapezoid sums of monomials are computed in closed form and the divergence terms cancel exactly. Uniqueness is C93. The lid flux is the difference at the two top corners. The non-exactness uses the corner divergence row (C96_square_needed). | proved |
| C114 | Operators do not depend on what was computed before, and give back the arrays they take | The functions are modelled as programs on a pool of numbered arrays (get/put/write), with arbitrary old contents. A relation (equality on the ghost window of each process) is carried through fills, scatters and element loops, which only read inside the window (C04); the result is then the pure operator of the other properties. The pool is shown equal up to the contents of free arrays, and the statement is lifted to histories by induction. | proved |
| C115 | The null space attached to the Stokes matrix is its kernel, and fixes the pressure | By C28 the assembled matrix acts as the matrix-free operator with all walls held; a constant pressure gives the outward normals times trapezoid weights on the walls (grad_const), which are held rows; the kernel comes from C93. In the exceptional case the ids of the rows are computed with the wrong stride: the row of the last but one node of the upper wall is shown untouched for every mesh. | proved |
| C116 | Every schedule of the processes ends, without deadlock, with the same results | Small-step semantics of processes with collective operations (Verif/Model/Spmd.lean), the functions written as programs of one process on its own memory (Verif/Model/SpmdOps.lean); the steps have the diamond property, so one complete run bounds and determines all of them; a relation between the memories and the whole vectors of the earlier models is carried through every program. Deadlocks are seen by the semantics: two wrong programs are shown to get stuck. | proved |
| C117 | Any iterative method on the matrix-free operators gives the same results on any number of processes under any schedule | Model/SpmdMat.lean writes the shell operators as programs of the processes (Model/Spmd.lean) and a language of iterative methods; Spec/SpmdMat.lean gives the meaning on whole vectors; each operator is a Hoare triple on the parts (Lemmas/SpmdMat.lean), composed by induction on the method; the confluence of C116 turns one execution into all schedules; two layouts give the same whole operators by C21 and C25. Simplification: real arithmetic, so that sums do not depend on the order. | proved |
| C118 | Whole runs of DtoN and SEM, on any number of processes under any schedule | Model/SpmdCtl.lean adds the control vectors and the scalars of the Krylov method to the memories of C116, lifts the programs of C116 to them, and gives a language of instructions of which create_Mat_and_Vec, setup_RHS, solve, solve_last_problem and any Krylov method are words; Spec/SpmdCtl.lean gives their meaning on whole vectors. Hoare triples on the processes (Lemmas/SpmdCtl.lean) composed by induction on the word, confluence of C116 for all schedules; the words of the drivers are shown to be the drivers of Model/Dton.lean (of C55, C83, C87). Simplification: real arithmetic; the fluid solve is one collective operation that is a function of its right-hand side. | proved |
| C119 | Files of save_VTK under every interleaving and at every crash point | Transition system of the processes on one file system (Model/VtkSave): gathers whose senders wait as long as the implementation wants, files opened and then closed. An invariant (Lemmas/VtkSave) ties the instructions left, the values sent and gathered and the disk to the number of instructions each process has done; progress, the bound on the steps and the state of the disk at every moment follow. The hole of the 2D version is an explicit run, built for every implementation. | proved |
| C120 | What SEM tells its user, on any number of processes and under any schedule | The programs of C118 are lifted into a memory that also holds the reports (Model/Report); triples relate them to the reports on whole vectors (Model/SemPost), the dependence of the forces on the entries of the control only is proved by induction on the loops, and the confluence of C116 gives all the schedules. | proved |
| C121 | The boundary conditions imposed are the rows the user wrote, exactly when there is a row for every wall | model of std::copy row by row into an array with arbitrary content; induction on the list; reading of setDirichlet through the faces of the walls only; an adversarial memory for the converse | proved |
| C122 | Rounding errors of the matrix-free operators do not grow with the mesh or the number of processes | the loops with the arithmetic left open; four runs (computed, exact, absolute values, number of terms) followed together by a relational induction; the numbers of terms and of ghost copies bounded by the geometry of the mesh (3^d copies, one element per shape function) | proved |
| C123 | Files of save_hdf5 at every moment of a sequence of calls | Model/Hdf5Save: a sequence of calls as programs of the processes (collective create/data set/close, independent writes of the owned nodes, two steps of the description by process 0). Invariant over runs (Mid: the section each process is in, the set of processes that have written), number of steps counted; the closed file equals a specification built from the fields alone (Spec/Hdf5Save.whole). | proved |
| C124 | The preconditioner of setPMMSolver has a mesh-independent real spectrum | Model/Pmm.lean states the action of PCFIELDSPLIT (Schur, upper factor, off-diagonal blocks of the system matrix) with the settings of setPMMSolver, on top of the modelled Stokes operator; the velocity sub-solver is a parameter. The generic proof (Props/Pmm.lean) reduces an eigenvector with eigenvalue other than 1 to a pure pressure residual, uses the adjointness of gradient and divergence and the symmetry of the velocity operator to get a real eigenvalue, and bounds it with the Cauchy-Schwarz inequality of Lemmas/DivBound.lean (pressure mass times divergences, cell by cell from exact integrals), C98_mass (mass against its diagonal) and C98_identity/C98_bounds (divergences against the velocity operator). The kernel comes from C93. Not modelled: the inexact GCR/multigrid velocity solve (only its residual enters) and PETSc's code itself. | proved |
| C125 | Localisation of the particles on the mesh in floating point | the loops with each operation followed by an arbitrary rounding; closed form of the accumulated abscissa by induction, its error with the calculus of C122, monotonicity of the rounding for the boxes; round to nearest with p binary digits proved to satisfy the hypotheses; the counterexample evaluated in 53-bit arithmetic | proved |

## Disagreements found between the code and the intended property

Where the code does not do what its user expects, the property is proved in the exact form that
holds and the intended form is refuted by a theorem (suffix `_refuted`) or restricted by an explicit
hypothesis.

* `apply_mass_matrix`: the lambda doubling the pressure step takes its argument by value, so the
  pressure mass matrix uses the velocity step (factor 2^-d) (C67).
* `linear_interpolation`: refine factors swapped in the loop bounds; writes beyond the pressure array (C69);
  on several processes fine nodes are left unset and a process writes out of its array (C97).
* `create_xdmf`: pressure topology and data sizes never agree; x/y order wrong unless square (C70); a call of `save_hdf5`
  over earlier files destroys the data before the description is replaced (C123); it takes the steps of a plane mesh, so
  `save_hdf5` with the 3D context of tests/cavity3d.cpp and tests/stokes_analytic_3d.cpp does not compile.
* `save_VTK`: on periodic meshes the pieces exceed the whole extent (C89). `saveParticles` without
  forces loses the third coordinate in 3D (C90).
* NtoD: does not instantiate; 2D torque index wrong; `solve` writes `angular_velocity_[0]` instead of `[2]` in 2D (C54).
* `createLevelMatrices`: infinite loop on rectangles and on all cubes in 3D (C65).
* SEM: right-hand side left from the last matrix product (C83); DtoN: second call and `use_sing` flags, nothing but zero with `default_flags_` off on a fresh object (C55).
* 3D `construct_base` orthonormal only away from the coordinate axes (C58).
* singular forces: the 2D loop never executes, 3D weights are N²−k, `part2` is a copy of `part1` in 2D (C78);
  the force loop overruns with two particles or more (C53); pair loops with no particle wrap around (C77).
* element table `dxudyu[i][j]` is the integral of ∂yφi ∂xφj: the assembled strain block (0,1) differs
  from the matrix-free one (C23).
* `get_box` uses `asin(cutoff/r)`, undefined when √2 h > r (hypothesis of C76).
* `setup_RHS` accumulates the source on repeated calls (C84).
* `contains` in 3D ignores the rotation that `bounding_box` applies (C38); `surface(u)` ignores it too (C40).
* 3D `surface(k)`: pushes into the vector it iterates over (always reads through invalidated iterators), exchanges
  the two exponents, counts the poles four times and the equator twice (C95).
* quaternion `normalize` divides by the squared norm (C37).
* `vector += velocity` and `velocity − vector` compute `vector − velocity` (C34), hence the surface
  condition of DtoN is `u = −V + ω×r` (C50, C87).
* 2D singular velocity: `uz` misses the derivative of the cut-off, so incompressibility, gradients and
  the lubrication equation fail in the cut-off zone (C60, C61, C88); 3D `dxux`, `dyuy` are coded 0 on the axis (C60).
* 3D tangential singular velocity: the curvatures H and M are exchanged with respect to all the other
  fields, and `dxuz` is coded 0 on the axis (C92); 2D is right up to cut-off terms on the second wall (C91).
* 3D `construct_base` takes `v1 − v2` where 2D takes `v2 − v1`, with the same axis: the spatial singular flow has the
  wrong sign (C75).
* `chiTrunc` uses a chained comparison and `d4chiTrunc` misses a factor (C57); `d4alphaTrunc` misses a factor (C56).
* In space the frame of a pair depends on the relative velocity and is not orthonormal in general: the singular flow is not
  additive in the velocities, and the NtoD operator is then not linear (C107). In the plane both are linear.
* NtoD: a process whose box does not meet that of a particle keeps its old velocity, although the singular sources of all
  pairs use it; a particle meeting two processes has two sets of unknowns and makes the operator singular (C110).
* `diagonal_assembling` does nothing (C68); `set_materials` repeated multiplies `num` (C71);
  constant control has the wrong total force (C72).
* `INSERT_VALUES` drops the contributions of neighbours in `addsingularity` (C81).
* `check_box_inside` accepts boxes that are not inside (C33).
* The multigrid smoothers run conjugate gradients on an operator that is symmetric only on the vectors vanishing at
  the constrained dofs; the Jacobi diagonal is the Laplacian's also with the strain tensor and ignores the
  Dirichlet rows (C98, C99).
* NtoD: the right-hand side contains the singular forces of the velocities the particles had before, and the last DtoN
  flow is solved without the singular source the balance was computed with (C101); in 2D `solve` would store the
  angular velocity in component 0 where the operator uses component 2.
* `SetDirichletOnMat`: wrong stride and null conditions (C28).
* 2D `triangulation_` keeps only the facets qhull flags as coplanar triangulated and returns (0,0,0) for the others;
  a facet with more than three vertices overruns its row (C105).
* The condition of a sliding wall also replaces the zero normal velocity of the walls it meets: with a lid whose velocity
  varies, the discrete problem has no solution unless the two top corners have the same velocity (C113). The analytic
  tests have a discrete solution, but never the analytic velocity at the nodes (C113, C96).
* `set_rhs` and `set_rhs_problem` give back their global work vectors while a `petsc_vec` still refers to them: harmless,
  because nothing is taken in between (C114). `CreatePressureNullSpace` never gives back its vector.
* The null space attached to the assembled Stokes matrix is right whatever the declared conditions, because
  `SetDirichletOnMat` always holds all the walls; it is wrong (not in the kernel) with one process, x periodic and y not,
  incomplete without walls, and the matrix-free mode attaches none (C115).
* On a grid of one coarse cell in two directions, closed by walls, the pressure is not determined up to a constant: the
  hourglass mode is in the kernel (C93).
* `computesingularBC` in space tests one tangential coordinate only: a band instead of a disk (C109).
* `save_VTK` in 2D writes the pieces after the gathers (in 3D before): a killed run can leave a complete
  `_pressure.pvts` whose pieces do not exist (C119).
* `dirichlet_conditions` leaves the rows that the user does not write uninitialised, and copies more than `2 d` rows past
  its array; tests/stokes.cpp writes four rows in 3D, where six are needed (C121).

## Testing the theorems

`seeded/LOG.jsonl` records each deliberate bug put in a scratch copy of the model, the theorems that
failed and those that had to be added or tightened. Survivors that are not equivalent programs led to
new properties (C74–C90 mostly).
