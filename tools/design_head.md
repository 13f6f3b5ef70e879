# Formal model of gouarin/cafes in Lean 4 — design

## What is modelled, and how

* **Numbers.** `double` arithmetic is modelled by exact field arithmetic: definitions are
  generic over a field `K` where possible (so they compute over `ℚ`), theorems are stated over `ℝ`
  (or any ordered field). NaN, overflow and underflow of `double` are **not** modelled, and rounding only in Model/Rounding
  and Model/RoundingGeom (C125: the localisation of the particles with every operation rounded;
  C122: the matrix-free products with every sum and product rounded under the standard model
  `fl(x op y) = (x op y)(1+δ)`, in any order of the assembly; element matrices taken as given).
  `int` indices are `ℤ`; places where the C++ type matters (`std::size_t` loop indices, truncating
  conversion `double → int`) are modelled explicitly (truncation, unsigned wrap-around).
* **Positions / boxes.** `position<T,D>` is `Fin D → T`; `box` is a pair of positions.
* **Fields.** A PETSc vector attached to a DMDA is a function `node → dof → K`; kernels become
  functions returning the updated field; loops are folds over the list of visited points.
* **PETSc / MPI.** Parameters with a recorded contract: a DMDA is a Cartesian product of 1-D
  ownership splits (list of positive sizes summing to the global size); `DMLocalToGlobal(ADD)` sums
  the local contributions of all processes; `MPI_Allreduce(SUM)` is the sum over processes;
  `DMGlobalToLocal` copies the owner's value to ghosts. Concurrency (Model/Spmd): the processes are interleaved step
  by step; a collective operation takes place when all the processes wait in one of the same kind with the same count. KSP solvers are not modelled: where a
  property needs one it is a hypothesis of the theorem (the solver returns a solution of the system
  it is given).
* **Undefined behaviour** (index out of bounds, uninitialised reads, division by zero) is an
  explicit outcome (`none`/`Option`, or a separate predicate) where a property talks about it.

Layout: `lean/Verif/Model/*` the model (each definition cites file:lines), `lean/Verif/Spec/*` the
independent specifications, `lean/Verif/Lemmas/*` helper lemmas, `lean/Verif/Props/*` the property
theorems with non-vacuity examples. `tools/` holds the scripts that produced the element tables and
the singular fields (`gen_tables.py`, `gen_sing.py`, a transcription of the C++ expressions), the
manifest (`manifest.py`) and this document (`design.py`).

## Trusted base

* Lean 4.33.0's kernel; the axioms `propext`, `Classical.choice`, `Quot.sound` only
  (checked by vcheck on every theorem). No own axioms, no proof by compiled code.
* The reading of the C++ source into the model (citations in every definition).
* The contracts of PETSc/MPI listed above; exact arithmetic instead of floating point (except C122, C125).

### Modelled files

| file in /repo/cafes | model | not modelled in it |
|---|---|---|
| algorithm/iterate.hpp | Iterate | kernels that modify their position |
| particle/geometry/{box,position,vector,cross_product,quaternion,linspace,uniform_sampling,super_ellipsoid,circle,sphere}.hpp | Box, Geometry, Sampling3 | printing |
| particle/physics/{force,velocity}.hpp | Geometry | printing |
| fem/{mesh,quadrature}.hpp | Mesh, Quadrature | DM hierarchies for multigrid beyond the sizes |
| fem/matElem.hpp | MatElem, Tables | |
| fem/{operator,matrixFree}.hpp | Operator, SpmdMat (as programs of the processes), Rounding (with rounded arithmetic) | |
| fem/{bc,rhs}.hpp | Dirichlet, MakeBC, StokesRhs | |
| fem/assembling.hpp | Assemble, Prealloc | 3D assembling of the tensor (not in the code) |
| petsc/vec.hpp | Operator, Post (`at`), Work (arrays taken, recycled and given back) | move constructor (never called) |
| particle/{particle,forces_torques}.hpp | Particle | |
| particle/singularity/truncation.hpp | Trunc | |
| particle/singularity/UandPNormal.hpp | SingNormal | |
| particle/singularity/UandPTang.hpp | SingTang | |
| particle/singularity/singularity.hpp | Singularity | |
| particle/singularity/add_singularity.hpp | AddSing, SurfSing | the commented-out output functions |
| problem/particle_operator.hpp | Particle, SpmdOps, SpmdCtl, Report (as programs of the processes) | the ghost exchange of the (zero) pressure part in `set_rhs_problem` |
| problem/{dton,sem}.hpp | Dton, Pieces, SemPost, SpmdCtl, Report (as programs of the processes) | KSP (hypothesis: exact solve) |
| problem/ntod.hpp | Ntod, NtodDriver, NtodPieces, NtodProcs | KSP (as in dton) |
| problem/stokes.hpp | StokesRhs, Multigrid, Options (constructor), NullSpace (CreatePressureNullSpace), Pmm (action of the preconditioner of setPMMSolver) | the other PETSc solver settings; the inner GCR/multigrid iterations (a parameter of Pmm) |
| problem/options.hpp | Options | the option database of PETSc (arbitrary) |
| particle/geometry/triangulation.hpp | Triangulation | Qhull (an arbitrary function to lists of facets) |
| posttraitement/interpolation.hpp | Post, PostProcs | the choice of the fine ownership by PETSc (arbitrary) |
| io/hdf5.hpp | Post, Hdf5Save (as programs of the processes) | the HDF5 library (contract in Model/Hdf5Save), I/O errors, `save_hdf5` in 3D (does not compile: `create_xdmf` takes two steps) |
| io/vtk.hpp | Vtk, VtkSave | the VTK library, single precision of the points, buffers of the operating system |

Not modelled at all: problem/matMult.hpp and problem/context.hpp (dispatch and plain data; their
effect is in the drivers), demos and tests.

