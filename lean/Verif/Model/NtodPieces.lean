/-
The concrete pieces put together by the driver of the NtoD problem (Verif/Model/NtodDriver.lean) in 2D, from the models of
cafes/problem/particle_operator.hpp, cafes/particle/forces_torques.hpp and
cafes/particle/singularity/{singularity,add_singularity}.hpp.
-/
import Verif.Model.NtodDriver
import Verif.Model.SemPost

namespace Cafes.Driver
open Cafes Cafes.Particle Cafes.Geometry Cafes.AddSing Cafes.Sing

variable {d N : ℕ} {A : Type*}

/-- The copy of the velocities into the particles at the beginning of `NtoD_matrix` (ntod.hpp:70-92) and at the end of `solve`
(ntod.hpp:283-299), the components being those of C54. Simplification: a process on which the box of a particle does not
intersect its own box skips the particle and keeps the old velocity; here every process has the new one (true on one
process). -/
def setVelocities (parts : List (Part d A)) (v : ℕ → Pos d ℝ × A) : List (Part d A) :=
  parts.zipIdx.map fun p => { p.1 with velocity := (v p.2).1, omega := (v p.2).2 }

/-- `singularity<..> sing(particles[ipart], particles[jpart], h[0])` in 2D (add_singularity.hpp:559-560, 619-620, 941-942), with
the default `alpha = 4` (singularity.hpp:73-76); `rad i` is `shape_factors_[0]` of the particle `i`. -/
noncomputable def singAt2 (parts : List (Part 2 A)) (rad : ℕ → ℝ) (h0 : ℝ) (i j : ℕ) : Option (Singularity 2) :=
  match parts[i]?, parts[j]? with
  | some p, some q => mkSing2 ⟨p.center, p.velocity, rad i⟩ ⟨q.center, q.velocity, rad j⟩ h0 4
  | _, _ => none

/-- What the loops of add_singularity.hpp:551-571 use of the particles `i` and `j`, when they have a singularity. -/
noncomputable def pairAt2 (parts : List (Part 2 A)) (rad : ℕ → ℝ) (h : Pos 2 ℝ) (i j : ℕ) : Option (Pair 2) :=
  match parts[i]?, parts[j]? with
  | some p, some q => (singAt2 parts rad (h 0) i j).map fun S => pair2 S p.contains q.contains h
  | _, _ => none

/-- The pairs visited by `add_singularity_in_fluid` (add_singularity.hpp:551-563) that have a singularity. Without any
particle the loop of the code reads out of bounds (C77): the list is then empty here. -/
noncomputable def singPairs2 (parts : List (Part 2 A)) (rad : ℕ → ℝ) (h : Pos 2 ℝ) : List (Pair 2) :=
  ((pairLoop parts.length).getD []).filterMap fun ij => pairAt2 parts rad h ij.1 ij.2

/-- The data of the problem once the particles have the velocities `v`. -/
noncomputable def Setup.moving (D : Setup 2 N A) (rad : ℕ → ℝ) (v : ℕ → Pos 2 ℝ × A) : Setup 2 N A :=
  { D with
    parts := setVelocities D.parts v
    pairs := singPairs2 (setVelocities D.parts v) rad D.h }

/-- `compute_singular_forces` with `N = 100` as `forces_torques_with_control` calls it (forces_torques.hpp:108), each force
being added to the particle it is computed for (the indices of forces_torques.hpp:110-118 are repaired, see
Verif/Model/NtodDriver.lean); no torque. -/
noncomputable def singularForces2 [AddCommGroup A] (parts : List (Part 2 A)) (rad : ℕ → ℝ) (h0 : ℝ) (i : ℕ) : Pos 2 ℝ × A :=
  (((singForces parts.length fun i j => (singAt2 parts rad h0 i j).map fun S =>
    (singForce2 S 100, singForce2 S 100)).getD 0) i, 0)

/-- The pieces of the driver of NtoD for the data `D` in 2D, the fluid solver being `solve` and the radii `rad`. -/
noncomputable def Setup.ntodPieces2 [AddCommGroup A] [Module ℝ A] (D : Setup 2 N A) (rad : ℕ → ℝ)
    (solve : NodeVec 2 2 ℝ × NodeVec 2 1 ℝ → NodeVec 2 2 ℝ × NodeVec 2 1 ℝ) :
    NtodPieces (NodeVec 2 2 ℝ × NodeVec 2 1 ℝ) ((Fin 2 → ℕ) → ℕ → ℝ) (SurfField 2) (ℕ → Pos 2 ℝ × A)
      (ℕ → Pos 2 ℝ × A) where
  base := D.pieces solve
  rigid v := ((D.moving rad v).pieces solve).rigid
  sing v := ((D.moving rad v).pieces solve).sing
  force := D.newForces
  singForce v := singularForces2 (setVelocities D.parts v) rad (D.h 0)

end Cafes.Driver
