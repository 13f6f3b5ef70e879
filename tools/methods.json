{
 "C01": "loops as recursive functions over ℤ in any dimension; induction on dimension and loop length",
 "C32": "loops as recursive functions over ℤ in any dimension; induction on dimension and loop length",
 "C02": "1-D ownership splits as lists, product over directions; induction over the list of sizes",
 "C03": "1-D ownership splits as lists, product over directions; induction over the list of sizes",
 "C05": "1-D ownership splits as lists, product over directions; induction over the list of sizes",
 "C04": "node lists, ghost windows, local indices; integer arithmetic",
 "C09": "node lists, ghost windows, local indices; integer arithmetic",
 "C06": "`P1_integration` over a field; ring identities, derivatives (Mathlib `HasDerivAt`)",
 "C07": "`P1_integration` over a field; ring identities, derivatives (Mathlib `HasDerivAt`)",
 "C08": "`P1_integration` over a field; ring identities, derivatives (Mathlib `HasDerivAt`)",
 "C10": "element tables over a field; specification with Mathlib interval integrals of the Q1 functions, tensor products",
 "C11": "element tables over a field; specification with Mathlib interval integrals of the Q1 functions, tensor products",
 "C12": "element tables over a field; specification with Mathlib interval integrals of the Q1 functions, tensor products",
 "C13": "element tables over a field; specification with Mathlib interval integrals of the Q1 functions, tensor products",
 "C14": "element tables; symmetry by computation on ℚ tables, positivity by sums of squares",
 "C15": "scatter/gather folds over the elements of any mesh and decomposition; bilinear forms as sums over elements",
 "C16": "scatter/gather folds over the elements of any mesh and decomposition; bilinear forms as sums over elements",
 "C17": "scatter/gather folds over the elements of any mesh and decomposition; bilinear forms as sums over elements",
 "C18": "scatter/gather folds over the elements of any mesh and decomposition; bilinear forms as sums over elements",
 "C19": "scatter/gather folds over the elements of any mesh and decomposition; bilinear forms as sums over elements",
 "C20": "scatter/gather folds over the elements of any mesh and decomposition; bilinear forms as sums over elements",
 "C21": "sum over processes of the scatter; independence from the partition of elements",
 "C22": "assembled matrix as a map on local indices; comparison with the matrix-free product, entry by entry",
 "C23": "assembled matrix as a map on local indices; comparison with the matrix-free product, entry by entry",
 "C24": "diagonal kernel; compared with the operator applied to unit vectors",
 "C25": "fold of faces over the owned boxes; last condition wins; independence from the decomposition",
 "C26": "fold of faces over the owned boxes; last condition wins; independence from the decomposition",
 "C27": "fold of faces over the owned boxes; last condition wins; independence from the decomposition",
 "C28": "fold of faces over the owned boxes; last condition wins; independence from the decomposition",
 "C29": "fold of faces over the owned boxes; last condition wins; independence from the decomposition",
 "C30": "box functions over a linear order; order lemmas, witness for the refutation",
 "C31": "box functions over a linear order; order lemmas, witness for the refutation",
 "C33": "box functions over a linear order; order lemmas, witness for the refutation",
 "C85": "box functions over a linear order; order lemmas, witness for the refutation",
 "C34": "componentwise definitions; ring identities; refutations by witness",
 "C35": "componentwise definitions; ring identities; refutations by witness",
 "C36": "componentwise definitions; ring identities; refutations by witness",
 "C37": "componentwise definitions; ring identities; refutations by witness",
 "C38": "super-ellipsoid over ℝ with `rpow`; real analysis",
 "C39": "super-ellipsoid over ℝ with `rpow`; real analysis",
 "C40": "super-ellipsoid over ℝ with `rpow`; real analysis",
 "C41": "super-ellipsoid over ℝ with `rpow`; real analysis",
 "C42": "loops of particle.hpp over cells; partition of the nodes between processes, truncation towards zero",
 "C43": "loops of particle.hpp over cells; partition of the nodes between processes, truncation towards zero",
 "C44": "loops of particle.hpp over cells; partition of the nodes between processes, truncation towards zero",
 "C45": "loops of particle.hpp over cells; partition of the nodes between processes, truncation towards zero",
 "C46": "loops of particle.hpp over cells; partition of the nodes between processes, truncation towards zero",
 "C71": "loops of particle.hpp over cells; partition of the nodes between processes, truncation towards zero",
 "C47": "position of the entries of the control vector by induction over particles and nodes",
 "C48": "position of the entries of the control vector by induction over particles and nodes",
 "C72": "position of the entries of the control vector by induction over particles and nodes",
 "C49": "surface and interior sums as folds over processes; finite-sum algebra",
 "C50": "surface and interior sums as folds over processes; finite-sum algebra",
 "C51": "surface and interior sums as folds over processes; finite-sum algebra",
 "C52": "surface and interior sums as folds over processes; finite-sum algebra",
 "C53": "surface and interior sums as folds over processes; finite-sum algebra",
 "C73": "surface and interior sums as folds over processes; finite-sum algebra",
 "C74": "surface and interior sums as folds over processes; finite-sum algebra",
 "C54": "index maps of NtoD; refutation of the 2D torques",
 "C55": "state machine of the driver over call sequences; affine operators; Krylov solver as hypothesis",
 "C83": "state machine of the driver over call sequences; affine operators; Krylov solver as hypothesis",
 "C56": "truncation functions; calculus, piecewise definitions",
 "C57": "truncation functions; calculus, piecewise definitions",
 "C58": "frames and change of frame as matrices; inner products; chain rule",
 "C59": "frames and change of frame as matrices; inner products; chain rule",
 "C63": "frames and change of frame as matrices; inner products; chain rule",
 "C60": "transcribed expressions of UandPNormal; `HasDerivAt` of each coded function, field_simp/ring identities between them",
 "C61": "transcribed expressions of UandPNormal; `HasDerivAt` of each coded function, field_simp/ring identities between them",
 "C62": "transcribed expressions of UandPNormal; `HasDerivAt` of each coded function, field_simp/ring identities between them",
 "C88": "transcribed expressions of UandPNormal; `HasDerivAt` of each coded function, field_simp/ring identities between them",
 "C64": "level loops as fuelled recursion / relation; arithmetic of sizes, non-termination as absence of a stopping index",
 "C65": "level loops as fuelled recursion / relation; arithmetic of sizes, non-termination as absence of a stopping index",
 "C66": "row by row count of the entries inserted by the assembly against the preallocated numbers",
 "C67": "drivers over the modelled operators",
 "C68": "drivers over the modelled operators",
 "C69": "2D interpolation kernel as overwriting fold; sizes written in the XDMF file",
 "C70": "2D interpolation kernel as overwriting fold; sizes written in the XDMF file",
 "C76": "corner box of the contact zone; trigonometry of the caps",
 "C77": "pair loops with unsigned indices; quadrature sums; weak form on the cells of the box; ownership of the added values",
 "C78": "pair loops with unsigned indices; quadrature sums; weak form on the cells of the box; ownership of the added values",
 "C80": "pair loops with unsigned indices; quadrature sums; weak form on the cells of the box; ownership of the added values",
 "C81": "pair loops with unsigned indices; quadrature sums; weak form on the cells of the box; ownership of the added values",
 "C84": "set-up functions iterated",
 "C86": "Stokes operator tested against a discrete field equals the integral of the weak form (interval integrals)",
 "C87": "concrete pieces put in the abstract drivers; affine maps; solver as hypothesis",
 "C89": "files as lists in the order of insertion; a reader's index formula as specification",
 "C90": "files as lists in the order of insertion; a reader's index formula as specification",
 "C91": "real analysis: HasDerivAt of the coded formulas, field identities",
 "C92": "real analysis: HasDerivAt of the coded formulas; closed forms of the components valid on the axis; boundary values and field identities by algebra",
 "C93": "energy of the difference is zero (C18 adjointness), so its gradient (strain) vanishes cell by cell; zero spreads from the held wall to all nodes; the kernel of the tensor-product pressure gradient is computed from one-dimensional mass and derivative operators; for the sharpness, the alternating pressure in two directions of one cell is in the kernel (the one-dimensional mass operator vanishes on it at the middle node)",
 "C94": "total divergence as a wall flux by adjointness and the gradient of a constant pressure, computed direction by direction; kernel of dimension one (C93) and range in a hyperplane, then rank-nullity on the space of grid values",
 "C95": "sampling loops as inductive relations, `std::vector` as elements and capacity with any growth policy; capacity invariant; rings reduced to the 2D sampling (C40)",
 "C96": "each element operator as a tensor product of one-dimensional stencils that are exact on monomials; flow specified with Mathlib's derivative; uniqueness from C93",
 "C97": "each process as a fold of writes whose values do not depend on the cell; owner of a fine node unique; the blocks of the fine mesh are arbitrary (choice of PETSc)",
 "C98": "discrete integration by parts one direction at a time (1D matrices of u'v and uv' are opposite away from the walls), then Gram matrices; diagonals cell by cell (pairs of a positive matrix, row sums)",
 "C99": "C25 removes the Dirichlet rows against vectors vanishing there; C15 (symmetry), Lemmas/Propagate (definiteness once held) and C24 (diagonal); the asymmetry is witnessed by the indicators of the free and of the constrained dofs of a component, whose sum is in the kernel.",
 "C100": "Induction over the index list of the in-place loop, with the scalar read from the array being modified; floor and ceil by the order properties of the integer part.",
 "C101": "State machine with the flags; the constant part of the DtoN operator splits into data, rigid motion and singular source; exactness of the solvers then gives the residual; counterexamples on the smallest problem.",
 "C102": "contains is turned into a Euclidean ball; volume of balls, polar coordinates (surface measure of the unit sphere) and invariance under permutations and reflections of the coordinates give the second moments.",
 "C75": "coordinates of the facing points in the contact frame (orthonormal base, Parseval), then the wall values of C62; counterexample with two unit spheres for the spatial sign",
 "C103": "Orthogonality of the momentum rows to the differences of admissible velocities, from the adjointness of gradient and divergence (C18), the symmetry and positivity of the velocity block (C15) and the identity of the block with the integrals (C86); converse by definiteness (C93).",
 "C104": "Direct computation for the options; composition with C93, C94, C96 and C28 for the system built by the constructor.",
 "C105": "Induction on the points (coordinate array) and on the facets (triangles written so far followed by zero triangles).",
 "C106": "Model/SemPost.lean over the pieces of Model/Pieces.lean. The surface points held by the processes are a permutation of the samples (C45), so the reduced mean is the mean of the Q1 field (C06); affine exactness from C73, barycentre of the circle samples from C49, forces from C52 with the count of C46.",
 "C107": "Model/NtodPieces instantiates the abstract NtoD driver with the models of the particle operators, forces and singular sources; linearity of each piece by induction on the loops (cells, pairs, particles) from the linearity of the closed-form fields in UN and UT; C101 then applies. The 3D counterpart is refuted on two spheres with an oblique axis. In space (Props/SingHomog3): every field is a factor times its value for unit approach velocity, and the frame only depends on the direction of the relative velocity.",
 "C108": "The misfit is a quadratic function of the flow; its slope along a flow driven by nodal forces is, by the reciprocity of the discrete Stokes operator (C103) and the duality of interpolation and spreading (C51, C87), the work of these forces in the flow of the second problem. Zero velocity inside the particles is therefore the optimality condition; existence by least squares in a finite dimensional space; the driver by C55. The solvability of the control equation stays a hypothesis of the driver theorem (the control enters through the mass matrix, so it is not implied by existence); C108_control says it is equivalent to a control reaching the least misfit.",
 "C109": "Loops as folds; the clipped box in physical coordinates contains a held point exactly when the box of the pair does, because the cell of the point is in the box of the process; a skipped pair contributes nothing (C30). Arcs: the fold evaluated against a test field, the frame of the pair is orthonormal (C58), trigonometry.",
 "C110": "Model/NtodProcs.lean: the copy loops with their counters, one array per process, DtoN being any force law. Closed forms of the loops by induction on the particles; C110_kernel by finite dimension (not surjective, hence not injective); explicit mesh and discs for the refutation.",
 "C111": "simple_layer removes from the interpolated velocity its mean rigid motion, and on balanced samples the rest does no work in rigid motions (C49), so the misfit with any motions is that with the mean ones plus a square. The slope along a flow driven by forces delta is, by reciprocity (C103), the work of delta in the second flow w, zero when w is rigid inside the particles and delta internal. Conversely, if all the slopes vanish take delta = w minus its best rigid motion. The driver by C83; the solvability of the control equation stays a hypothesis, met by the example. The flow meant is the one of the control found; the fluid solution left in the object differs from it (C83).",
 "C112": "On each line of nodes in the direction of the wall the value is a sum of differences (Cauchy-Schwarz); the cell matrices are tensor products (C10, C11), written as sums of squares in the transverse directions, so the bound on the lines sums to the bound on the integrals. The difference of the two solutions vanishes at the imposed dofs and has no discrete divergence, hence its energy is the work of the mass matrix applied to the difference of the nodal sources (C29, C103); Young's inequality for the mass form and, for the strain, C98 give the estimates. Example with existence from C94.",
 "C113": "The solvability criterion of C94 is that the trapezoid flux of the wall values vanishes. For sliding walls the boundary nodes are paired across the box (last applied face decides the value at edges); for quadratic velocities the trapezoid sums of monomials are computed in closed form and the divergence terms cancel exactly. Uniqueness is C93. The lid flux is the difference at the two top corners. The non-exactness uses the corner divergence row (C96_square_needed).",
 "C114": "The functions are modelled as programs on a pool of numbered arrays (get/put/write), with arbitrary old contents. A relation (equality on the ghost window of each process) is carried through fills, scatters and element loops, which only read inside the window (C04); the result is then the pure operator of the other properties. The pool is shown equal up to the contents of free arrays, and the statement is lifted to histories by induction.",
 "C115": "By C28 the assembled matrix acts as the matrix-free operator with all walls held; a constant pressure gives the outward normals times trapezoid weights on the walls (grad_const), which are held rows; the kernel comes from C93. In the exceptional case the ids of the rows are computed with the wrong stride: the row of the last but one node of the upper wall is shown untouched for every mesh.",
 "C116": "Small-step semantics of processes with collective operations (Verif/Model/Spmd.lean), the functions written as programs of one process on its own memory (Verif/Model/SpmdOps.lean); the steps have the diamond property, so one complete run bounds and determines all of them; a relation between the memories and the whole vectors of the earlier models is carried through every program. Deadlocks are seen by the semantics: two wrong programs are shown to get stuck.",
 "C117": "Model/SpmdMat.lean writes the shell operators as programs of the processes (Model/Spmd.lean) and a language of iterative methods; Spec/SpmdMat.lean gives the meaning on whole vectors; each operator is a Hoare triple on the parts (Lemmas/SpmdMat.lean), composed by induction on the method; the confluence of C116 turns one execution into all schedules; two layouts give the same whole operators by C21 and C25. Simplification: real arithmetic, so that sums do not depend on the order.",
 "C118": "Model/SpmdCtl.lean adds the control vectors and the scalars of the Krylov method to the memories of C116, lifts the programs of C116 to them, and gives a language of instructions of which create_Mat_and_Vec, setup_RHS, solve, solve_last_problem and any Krylov method are words; Spec/SpmdCtl.lean gives their meaning on whole vectors. Hoare triples on the processes (Lemmas/SpmdCtl.lean) composed by induction on the word, confluence of C116 for all schedules; the words of the drivers are shown to be the drivers of Model/Dton.lean (of C55, C83, C87). Simplification: real arithmetic; the fluid solve is one collective operation that is a function of its right-hand side.",
 "C119": "Transition system of the processes on one file system (Model/VtkSave): gathers whose senders wait as long as the implementation wants, files opened and then closed. An invariant (Lemmas/VtkSave) ties the instructions left, the values sent and gathered and the disk to the number of instructions each process has done; progress, the bound on the steps and the state of the disk at every moment follow. The hole of the 2D version is an explicit run, built for every implementation.",
 "C120": "The programs of C118 are lifted into a memory that also holds the reports (Model/Report); triples relate them to the reports on whole vectors (Model/SemPost), the dependence of the forces on the entries of the control only is proved by induction on the loops, and the confluence of C116 gives all the schedules.",
 "C121": "model of std::copy row by row into an array with arbitrary content; induction on the list; reading of setDirichlet through the faces of the walls only; an adversarial memory for the converse",
 "C122": "the loops with the arithmetic left open; four runs (computed, exact, absolute values, number of terms) followed together by a relational induction; the numbers of terms and of ghost copies bounded by the geometry of the mesh (3^d copies, one element per shape function)",
 "C123": "Model/Hdf5Save: a sequence of calls as programs of the processes (collective create/data set/close, independent writes of the owned nodes, two steps of the description by process 0). Invariant over runs (Mid: the section each process is in, the set of processes that have written), number of steps counted; the closed file equals a specification built from the fields alone (Spec/Hdf5Save.whole).",
 "C124": "Model/Pmm.lean states the action of PCFIELDSPLIT (Schur, upper factor, off-diagonal blocks of the system matrix) with the settings of setPMMSolver, on top of the modelled Stokes operator; the velocity sub-solver is a parameter. The generic proof (Props/Pmm.lean) reduces an eigenvector with eigenvalue other than 1 to a pure pressure residual, uses the adjointness of gradient and divergence and the symmetry of the velocity operator to get a real eigenvalue, and bounds it with the Cauchy-Schwarz inequality of Lemmas/DivBound.lean (pressure mass times divergences, cell by cell from exact integrals), C98_mass (mass against its diagonal) and C98_identity/C98_bounds (divergences against the velocity operator). The kernel comes from C93. Not modelled: the inexact GCR/multigrid velocity solve (only its residual enters) and PETSc's code itself.",
 "C125": "the loops with each operation followed by an arbitrary rounding; closed form of the accumulated abscissa by induction, its error with the calculus of C122, monotonicity of the rounding for the boxes; round to nearest with p binary digits proved to satisfy the hypotheses; the counterexample evaluated in 53-bit arithmetic"
}