import Mathlib.Algebra.Module.Basic
import Mathlib.Data.Real.Basic

/-!
Model of the drivers of the particle problems: cafes/problem/dton.hpp (DtoN_matrix 58-99, the class DtoN
101-341), cafes/problem/sem.hpp (sem_matrix 54-94, the class SEM 97-283), the function init_problem of
cafes/problem/particle_operator.hpp (273-303), and the driver part of cafes/problem/ntod.hpp (41-141).

The pieces the drivers put together are the fields of `Fluid`; the concrete ones are given in
`Verif/Props/DtonInst.lean` from the models of particle_operator.hpp and bc.hpp. The inner fluid solver
(`KSPSolve` of the Stokes problem, stokes.hpp:401-411) is a parameter `solve`, the outer Krylov solver a
parameter `Krylov`: PETSc is not modelled.
-/

namespace Cafes.Driver

/-- The pieces: `F` are the fluid vectors, `C` the control vectors, `G` the fields on the surfaces of the
particles. -/
structure Fluid (F C G : Type*) [AddCommGroup F] [AddCommGroup C] [AddCommGroup G] where
  /-- `problem.solve()`: `sol` from `rhs` -/
  solve : F → F
  /-- what `set_rhs` adds to `rhs` (0 when there is no source) -/
  source : F
  /-- `SetDirichletOnRHS` -/
  setBC : F → F
  /-- `SetNullDirichletOnRHS` -/
  setNull : F → F
  /-- what `set_rhs_problem(x, false)` adds to `rhs` -/
  ctl : C → F
  /-- what `apply_forces` adds to it -/
  ext : F
  /-- what `add_singularity_in_fluid` adds to `rhs` -/
  sing : F
  /-- `interp_fluid_to_surf` without rigid motion -/
  interp : F → G
  /-- what `interp_rigid_motion_` adds to `g` -/
  rigid : G
  /-- `SL_to_Rhs` before its boundary condition -/
  sl : G → F
  /-- `compute_y` -/
  y : F → C
  /-- `simple_layer` on `g` -/
  layer : G → G
  /-- `projection` then `compute_y` with the mean and the mean rotation -/
  yMean : F → C

/-- The three flags of `particle_context` (context.hpp:101-103). -/
structure Flags where
  computeRhs : Bool
  addRigid : Bool
  computeSing : Bool

/-- A Krylov solver: from the operator and the right-hand side, the solution and the vectors to which the
operator was applied, in order. -/
abbrev Krylov (C : Type*) := (C → C) → C → C × List C

/-- The mutable state: flags, `sol` and `rhs` of the control problem, `rhs` and `sol` of the fluid
problem. -/
structure St (F C : Type*) where
  flags : Flags
  sol : C
  rhs : C
  fRhs : F
  fSol : F

variable {F C G : Type*} [AddCommGroup F] [AddCommGroup C] [AddCommGroup G]

/-- `stokes::setup_RHS` (stokes.hpp:311-326): `set_rhs` adds to `rhs`. -/
def setupRHSFluid (P : Fluid F C G) (rhs : F) : F := P.setBC (rhs + P.source)

/-- `init_problem` (particle_operator.hpp:273-303) on the content `rhs` of `problem.rhs`. -/
def initProblem (P : Fluid F C G) (fl : Flags) (applyForces : Bool) (x : C) (rhs : F) : F :=
  let rhs := if fl.computeRhs then setupRHSFluid P rhs else rhs
  let rhs := if fl.computeSing then rhs + P.sing else rhs
  let rhs := rhs + (P.ctl x + if applyForces then P.ext else 0)
  if fl.computeRhs then P.setBC rhs else P.setNull rhs

/-- `DtoN_matrix` (dton.hpp:58-99): new fluid state and `y`. -/
def dtonMatrix (P : Fluid F C G) (fl : Flags) (x : C) : (F × F) × C :=
  let rhs := initProblem P fl false x 0
  let sol := P.solve rhs
  let g := P.interp sol
  let g := if fl.addRigid then g + P.rigid else g
  let rhs := P.setNull (P.sl g)
  let sol := P.solve rhs
  ((rhs, sol), P.y sol)

/-- `sem_matrix` (sem.hpp:54-94). -/
def semMatrix (P : Fluid F C G) (fl : Flags) (x : C) : (F × F) × C :=
  let rhs := initProblem P fl fl.computeRhs x 0
  let sol := P.solve rhs
  let g := P.layer (P.interp sol)
  let rhs := P.setNull (P.sl g)
  let sol := P.solve rhs
  ((rhs, sol), P.yMean sol)

/-- `MatMult(A, x, y)` of a shell matrix: the fluid state is overwritten. -/
def applyOp (op : Flags → C → (F × F) × C) (s : St F C) (x : C) : St F C × C :=
  let r := op s.flags x
  ({ s with fRhs := r.1.1, fSol := r.1.2 }, r.2)

/-- `KSPSolve(ksp, rhs, sol)`. -/
def kspSolve (op : Flags → C → (F × F) × C) (K : Krylov C) (s : St F C) : St F C :=
  let r := K (fun x => (op s.flags x).2) s.rhs
  { r.2.foldl (fun s x => (applyOp op s x).1) s with sol := r.1 }

/-- `DtoN::setup_RHS` (dton.hpp:179-214), `dflt` being `default_flags_`. -/
def dtonSetupRHS (P : Fluid F C G) (dflt useSing : Bool) (s : St F C) : St F C :=
  let s := if dflt then { s with flags := ⟨true, true, useSing⟩ } else s
  let r := applyOp (dtonMatrix P) s s.sol
  { r.1 with rhs := -r.2 }

/-- `DtoN::solve_last_problem` (dton.hpp:243-312). The vector `sol_rhs` added to the first solution
(dton.hpp:272) is never set and that solution is overwritten by the second one. `addSing` is
`add_singularity_to_last_sol`. -/
def dtonSolveLast (P : Fluid F C G) (addSing : F → F) (dflt useSing : Bool) (s : St F C) : St F C :=
  let s := if dflt then { s with flags := ⟨false, false, false⟩ } else s
  let s := { s with fRhs := initProblem P s.flags false s.sol 0 }
  let s := { s with fSol := P.solve s.fRhs }
  let s := if dflt then { s with flags := ⟨true, true, useSing⟩ } else s
  let s := { s with fRhs := initProblem P s.flags false s.sol 0 }
  let s := { s with fSol := P.solve s.fRhs }
  if useSing then { s with fSol := addSing s.fSol } else s

/-- `DtoN::solve` (dton.hpp:316-340). -/
def dtonSolve (P : Fluid F C G) (K : Krylov C) (addSing : F → F) (dflt useSing : Bool) (s : St F C) :
    St F C :=
  let s := if dflt then { s with flags := ⟨false, false, useSing⟩ } else s
  let s := kspSolve (dtonMatrix P) K s
  if dflt then dtonSolveLast P addSing dflt useSing s else s

/-- `SEM::setup_RHS` (sem.hpp:157-168). -/
def semSetupRHS (P : Fluid F C G) (s : St F C) : St F C :=
  let s := { s with flags := { s.flags with computeRhs := true } }
  let r := applyOp (semMatrix P) s s.sol
  { r.1 with rhs := -r.2 }

/-- `SEM::solve` (sem.hpp:191-206): the last problem is set up without resetting `problem.rhs`. -/
def semSolve (P : Fluid F C G) (K : Krylov C) (s : St F C) : St F C :=
  let s := { s with flags := { s.flags with computeRhs := false } }
  let s := kspSolve (semMatrix P) K s
  let s := { s with flags := { s.flags with computeRhs := true } }
  let s := { s with fRhs := initProblem P s.flags true s.sol s.fRhs }
  { s with fSol := P.solve s.fRhs }

/-- The state after `create_Mat_and_Vec` (dton.hpp:145-175, sem.hpp:132-152): the flags are false, the
vectors created by PETSc are zero. In SEM the member `compute_singularity` is value initialised. -/
def initSt (f0 : F) (s0 : F) : St F C := ⟨⟨false, false, false⟩, 0, 0, f0, s0⟩

end Cafes.Driver
