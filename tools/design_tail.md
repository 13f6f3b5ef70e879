
## Disagreements found between the code and the intended property

Where the code does not do what its user expects, the property is proved in the exact form that
holds and the intended form is refuted by a theorem (suffix `_refuted`) or restricted by an explicit
hypothesis.

* `apply_mass_matrix`: the lambda doubling the pressure step takes its argument by value, so the
  pressure mass matrix uses the velocity step (factor 2^-d) (C67).
* `linear_interpolation`: refine factors swapped in the loop bounds; writes beyond the pressure array (C69);
  on several processes fine nodes are left unset and a process writes out of its array (C97).
* `create_xdmf`: pressure topology and data sizes never agree; x/y order wrong unless square (C70); a call of `save_hdf5`
  over earlier files destroys the data before the description is replaced (C123); it takes the steps of a plane mesh, so
  `save_hdf5` with the 3D context of tests/cavity3d.cpp and tests/stokes_analytic_3d.cpp does not compile.
* `save_VTK`: on periodic meshes the pieces exceed the whole extent (C89). `saveParticles` without
  forces loses the third coordinate in 3D (C90).
* NtoD: does not instantiate; 2D torque index wrong; `solve` writes `angular_velocity_[0]` instead of `[2]` in 2D (C54).
* `createLevelMatrices`: infinite loop on rectangles and on all cubes in 3D (C65).
* SEM: right-hand side left from the last matrix product (C83); DtoN: second call and `use_sing` flags, nothing but zero with `default_flags_` off on a fresh object (C55).
* 3D `construct_base` orthonormal only away from the coordinate axes (C58).
* singular forces: the 2D loop never executes, 3D weights are N²−k, `part2` is a copy of `part1` in 2D (C78);
  the force loop overruns with two particles or more (C53); pair loops with no particle wrap around (C77).
* element table `dxudyu[i][j]` is the integral of ∂yφi ∂xφj: the assembled strain block (0,1) differs
  from the matrix-free one (C23).
* `get_box` uses `asin(cutoff/r)`, undefined when √2 h > r (hypothesis of C76).
* `setup_RHS` accumulates the source on repeated calls (C84).
* `contains` in 3D ignores the rotation that `bounding_box` applies (C38); `surface(u)` ignores it too (C40).
* 3D `surface(k)`: pushes into the vector it iterates over (always reads through invalidated iterators), exchanges
  the two exponents, counts the poles four times and the equator twice (C95).
* quaternion `normalize` divides by the squared norm (C37).
* `vector += velocity` and `velocity − vector` compute `vector − velocity` (C34), hence the surface
  condition of DtoN is `u = −V + ω×r` (C50, C87).
* 2D singular velocity: `uz` misses the derivative of the cut-off, so incompressibility, gradients and
  the lubrication equation fail in the cut-off zone (C60, C61, C88); 3D `dxux`, `dyuy` are coded 0 on the axis (C60).
* 3D tangential singular velocity: the curvatures H and M are exchanged with respect to all the other
  fields, and `dxuz` is coded 0 on the axis (C92); 2D is right up to cut-off terms on the second wall (C91).
* 3D `construct_base` takes `v1 − v2` where 2D takes `v2 − v1`, with the same axis: the spatial singular flow has the
  wrong sign (C75).
* `chiTrunc` uses a chained comparison and `d4chiTrunc` misses a factor (C57); `d4alphaTrunc` misses a factor (C56).
* In space the frame of a pair depends on the relative velocity and is not orthonormal in general: the singular flow is not
  additive in the velocities, and the NtoD operator is then not linear (C107). In the plane both are linear.
* NtoD: a process whose box does not meet that of a particle keeps its old velocity, although the singular sources of all
  pairs use it; a particle meeting two processes has two sets of unknowns and makes the operator singular (C110).
* `diagonal_assembling` does nothing (C68); `set_materials` repeated multiplies `num` (C71);
  constant control has the wrong total force (C72).
* `INSERT_VALUES` drops the contributions of neighbours in `addsingularity` (C81).
* `check_box_inside` accepts boxes that are not inside (C33).
* The multigrid smoothers run conjugate gradients on an operator that is symmetric only on the vectors vanishing at
  the constrained dofs; the Jacobi diagonal is the Laplacian's also with the strain tensor and ignores the
  Dirichlet rows (C98, C99).
* NtoD: the right-hand side contains the singular forces of the velocities the particles had before, and the last DtoN
  flow is solved without the singular source the balance was computed with (C101); in 2D `solve` would store the
  angular velocity in component 0 where the operator uses component 2.
* `SetDirichletOnMat`: wrong stride and null conditions (C28).
* 2D `triangulation_` keeps only the facets qhull flags as coplanar triangulated and returns (0,0,0) for the others;
  a facet with more than three vertices overruns its row (C105).
* The condition of a sliding wall also replaces the zero normal velocity of the walls it meets: with a lid whose velocity
  varies, the discrete problem has no solution unless the two top corners have the same velocity (C113). The analytic
  tests have a discrete solution, but never the analytic velocity at the nodes (C113, C96).
* `set_rhs` and `set_rhs_problem` give back their global work vectors while a `petsc_vec` still refers to them: harmless,
  because nothing is taken in between (C114). `CreatePressureNullSpace` never gives back its vector.
* The null space attached to the assembled Stokes matrix is right whatever the declared conditions, because
  `SetDirichletOnMat` always holds all the walls; it is wrong (not in the kernel) with one process, x periodic and y not,
  incomplete without walls, and the matrix-free mode attaches none (C115).
* On a grid of one coarse cell in two directions, closed by walls, the pressure is not determined up to a constant: the
  hourglass mode is in the kernel (C93).
* `computesingularBC` in space tests one tangential coordinate only: a band instead of a disk (C109).
* `save_VTK` in 2D writes the pieces after the gathers (in 3D before): a killed run can leave a complete
  `_pressure.pvts` whose pieces do not exist (C119).
* `dirichlet_conditions` leaves the rows that the user does not write uninitialised, and copies more than `2 d` rows past
  its array; tests/stokes.cpp writes four rows in 3D, where six are needed (C121).

## Testing the theorems

`seeded/LOG.jsonl` records each deliberate bug put in a scratch copy of the model, the theorems that
failed and those that had to be added or tightened. Survivors that are not equivalent programs led to
new properties (C74–C90 mostly).
