/-
What the class SEM reports to the user after `solve`: cafes/problem/sem.hpp, `get_new_velocities` (210-238) and
`get_new_forces_torques` (243-260). `save` (sem.hpp:264-281) only calls the latter, its output calls are commented out.
-/
import Verif.Model.Pieces

namespace Cafes.Driver
open Cafes Cafes.Particle Cafes.Geometry

variable {d N : ℕ} {A : Type*}

/-- The mean filled by `simple_layer` for the particle `i` on the process `r` (sem.hpp:217-233): the field `g` has the
values of `interp_fluid_to_surf` with the default arguments (no rigid motion), `mean` and `cross_prod` start from zero. -/
noncomputable def Setup.surfaceMean [AddCommGroup A] [Module ℝ A] (D : Setup d N A) (u : NodeVec d d ℝ) (r : Fin d → ℕ)
    (i : ℕ) : Pos d ℝ :=
  match D.parts[i]? with
  | some p => (simpleLayer D.S p.cdR (D.data i r).nb (D.rs.map fun r' =>
      (D.data i r').radial.zipIdx.map fun x => (D.interp u r' i x.2, x.1))).1
  | none => 0

/-- The loop of `get_new_velocities` on the particles held by the process `r` (sem.hpp:235-237): the components of
`velocity_` are overwritten one by one. -/
noncomputable def Setup.newVelocities [AddCommGroup A] [Module ℝ A] (D : Setup d N A) (u : NodeVec d d ℝ)
    (r : Fin d → ℕ) : List (Part d A) :=
  D.parts.zipIdx.map fun p => { p.1 with
    velocity := (List.finRange d).foldl (fun v c => Function.update v c (D.surfaceMean u r p.2 c)) p.1.velocity }

/-- `get_new_forces_torques` (sem.hpp:243-260): `forces_torques_with_control` with the control `x`, the particles and the
counts `num_` of `set_materials`, without singularity; the values of the particle `i` after the reductions. -/
noncomputable def Setup.newForces [AddCommGroup A] [Module ℝ A] (D : Setup d N A) (x : (Fin d → ℕ) → ℕ → ℝ) (i : ℕ) :
    Pos d ℝ × A :=
  let loc := fun r => (localForces D.S D.fluid (getDMBounds D.L r true) D.h (x r)
    (D.parts.zipIdx.map fun p => (p.1, (D.data p.2 r).num))).2
  (allReduce (procs D.L) (fun r => (loc r).map Prod.fst) i, allReduce (procs D.L) (fun r => (loc r).map Prod.snd) i)

end Cafes.Driver
