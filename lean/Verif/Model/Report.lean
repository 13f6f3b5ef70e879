/-
What SEM tells its user, as programs of the processes: `get_new_velocities` and `get_new_forces_torques`
(cafes/problem/sem.hpp:210-260), between the instructions of the driver (Verif/Model/SpmdCtl.lean).

Simplifications: the operators keep the particles of the construction, while in the code `get_new_velocities` also
changes the particles of the context (sem.hpp:100, 144, 235: the context refers to `parts_`); no instruction of SEM reads
the velocities (`interp_fluid_to_surf` is called without the rigid motion), see `C120_velocities_unread`. The vectors
given by the user to `get_new_forces_torques` have one entry for each particle.
-/
import Verif.Model.SpmdCtl

namespace Cafes.Spmd
open Cafes Cafes.Particle Cafes.Driver Cafes.Geometry

/-- No other collective operation. -/
def noComm (ι : Type) : Comm ι where
  Kind := Empty
  Val k := nomatch k
  comb k := nomatch k

/-- The memory of a process with what it reports: the velocities of `parts_`, and the vectors of the user. -/
structure RMem (d : ℕ) (A : Type) where
  base : DMem d A
  vel : List (Pos d ℝ)
  forces : List (Pos d ℝ)
  torques : List A

/-- What the user asks after `create_Mat_and_Vec`. -/
inductive Task
  /-- instructions of the driver: `setup_RHS`, `solve`, .. -/
  | cmd (c : Cmd)
  /-- `get_new_velocities` -/
  | velocities
  /-- `get_new_forces_torques` -/
  | forces

section
variable {d N : ℕ} {A : Type} [AddCommGroup A] [Module ℝ A] (D : Setup d N A) (Lp : Fin d → Dir)
  (slv : NodeVec d d ℝ × NodeVec d 1 ℝ → NodeVec d d ℝ × NodeVec d 1 ℝ) (r : Fin d → ℕ)

/-- The programs. -/
abbrev RCode := Stmt ((drvComm D Lp slv).plus (noComm (Rank D.L))) (RMem d A)

/-- A program of Verif/Model/SpmdCtl.lean. -/
noncomputable def outer (p : DCode D Lp slv) : RCode D Lp slv :=
  p.lift (noComm (Rank D.L)) RMem.base fun m s => { m with base := s }

/-- `get_new_velocities` (cafes/problem/sem.hpp:210-238): `interp_fluid_to_surf` with the default arguments, `simple_layer`,
then the components of the velocities are overwritten one by one. -/
noncomputable def velocitiesProg : RCode D Lp slv := seqs [
  outer D Lp slv (inner D Lp slv (interpProg D Lp slv r fun _ => false)),
  outer D Lp slv (inner D Lp slv (layerProg D Lp slv)),
  .loc fun m => { m with vel := (m.vel.mapIdx fun i v =>
    (List.finRange d).foldl (fun v c => Function.update v c (m.base.base.mean.getD i 0 c)) v) }]

/-- `get_new_forces_torques` (cafes/problem/sem.hpp:240-260) with the control `sol`. -/
noncomputable def forcesTask : RCode D Lp slv := seqs [
  outer D Lp slv (.loc fun m => { m with base := { m.base with x := m.v 0 } }),
  outer D Lp slv (inner D Lp slv (forcesProg D Lp slv r)),
  .loc fun m => { m with forces := m.base.base.mean, torques := m.base.base.cross }]

/-- The program of the process `r` for a task. -/
noncomputable def Task.prog : Task → RCode D Lp slv
  | .cmd c => outer D Lp slv (c.prog D Lp slv r)
  | .velocities => velocitiesProg D Lp slv r
  | .forces => forcesTask D Lp slv r

/-- A session: `create_Mat_and_Vec`, then the tasks. -/
noncomputable def sessionProg (ts : List Task) : RCode D Lp slv :=
  .seq (outer D Lp slv (createProg D Lp slv r)) (seqs (ts.map fun t => t.prog D Lp slv r))

end
end Cafes.Spmd
