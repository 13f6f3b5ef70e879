import Verif.Model.Dton

/-!
Model of the driver of the NtoD problem: cafes/problem/ntod.hpp (NtoD_matrix 41-141, setup_RHS 213-238, solve 266-313).

As written the templates of that file do not instantiate (see Model/Ntod.lean: `forces_torques_with_control` is called with a
`std::vector<double>`, and in 2D `angular_velocity_` is indexed). Modelled here is what the calls do once these types agree: the
copies of the velocities into the particles and of the forces into `y` (layout proved in C54) are the identity. The loop that
adds the singular forces (forces_torques.hpp:110-118) is the piece `singForce`.
-/

namespace Cafes.Driver

variable {F C G U W : Type*} [AddCommGroup F] [AddCommGroup C] [AddCommGroup G] [AddCommGroup U] [AddCommGroup W]

/-- The pieces of NtoD: those of DtoN, the rigid motion and the singular source now depending on the velocities `U` of the
particles, and the forces and torques `W`. -/
structure NtodPieces (F C G U W : Type*) [AddCommGroup F] [AddCommGroup C] [AddCommGroup G] [AddCommGroup U]
    [AddCommGroup W] where
  /-- the pieces that do not depend on the velocities -/
  base : Fluid F C G
  /-- what `interp_rigid_motion_` adds to `g` (particle_operator.hpp:131-151) -/
  rigid : U → G
  /-- what `add_singularity_in_fluid` adds to `rhs` (particle/singularity/add_singularity.hpp:522-590) -/
  sing : U → F
  /-- `forces_torques_with_control` without singularity (particle/forces_torques.hpp:66-108) -/
  force : C → W
  /-- `compute_singular_forces` (particle/singularity/add_singularity.hpp:646-874) -/
  singForce : U → W

/-- The pieces of DtoN when the particles have the velocities `v`. -/
def NtodPieces.at (N : NtodPieces F C G U W) (v : U) : Fluid F C G :=
  { N.base with rigid := N.rigid v, sing := N.sing v }

/-- The state: the velocities stored in the particles, `sol` and `rhs` of NtoD, the state of the member `dton_`. -/
structure NSt (F C U W : Type*) where
  vel : U
  sol : U
  rhs : W
  dton : St F C

/-- `NtoD_matrix` (ntod.hpp:41-141): `computeRhs`, `computeSing` are the flags of the context of NtoD; `default_flags_` of `dton_`
is false (ntod.hpp:172). -/
def ntodMatrix (N : NtodPieces F C G U W) (K : Krylov C) (addSing : F → F) (useSing computeRhs computeSing : Bool) (x : U)
    (s : NSt F C U W) : NSt F C U W × W :=
  let s : NSt F C U W := { s with dton := { s.dton with rhs := 0, sol := 0 } }
  let s := if computeRhs then { s with dton := { s.dton with flags := ⟨true, false, true⟩ } }
    else { s with vel := x, dton := { s.dton with flags := ⟨false, true, true⟩ } }
  let s := { s with dton := dtonSetupRHS (N.at s.vel) false useSing s.dton }
  let s := { s with dton := { s.dton with flags := ⟨false, false, false⟩ } }
  let s := { s with dton := dtonSolve (N.at s.vel) K addSing false useSing s.dton }
  (s, N.force s.dton.sol + if computeSing then N.singForce s.vel else 0)

/-- `NtoD::setup_RHS` (ntod.hpp:213-238). -/
def ntodSetupRHS (N : NtodPieces F C G U W) (K : Krylov C) (addSing : F → F) (useSing : Bool) (s : NSt F C U W) :
    NSt F C U W :=
  let r := ntodMatrix N K addSing useSing true true s.sol s
  { r.1 with rhs := -r.2 }

/-- A Krylov solver for the velocities: from the operator and the right-hand side, the solution and the vectors to which the
operator was applied. -/
abbrev KrylovU (U W : Type*) := (U → W) → W → U × List U

/-- `NtoD::solve` (ntod.hpp:266-313). The operator given to the solver is the value of `NtoD_matrix` in the current state; the state
goes through all the applications; then the velocities are copied to the particles and DtoN is run with its default flags. -/
def ntodSolve (N : NtodPieces F C G U W) (K : Krylov C) (KU : KrylovU U W) (addSing : F → F) (useSing : Bool)
    (s : NSt F C U W) : NSt F C U W :=
  let r := KU (fun x => (ntodMatrix N K addSing useSing false true x s).2) s.rhs
  let s := r.2.foldl (fun s x => (ntodMatrix N K addSing useSing false true x s).1) s
  let s := { s with sol := r.1, vel := r.1 }
  let s : NSt F C U W := { s with dton := { s.dton with sol := 0, rhs := 0 } }
  let s := { s with dton := dtonSetupRHS (N.at s.vel) true useSing s.dton }
  { s with dton := dtonSolve (N.at s.vel) K addSing true useSing s.dton }

/-- A fresh object: particles with the velocities `v0`, null vectors. -/
def ntodInit (v0 : U) (f0 s0 : F) : NSt F C U W := ⟨v0, 0, 0, initSt f0 s0⟩

end Cafes.Driver
