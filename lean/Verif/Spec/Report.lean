/-
What a session with SEM must tell: the same tasks on whole vectors, with the reports of Verif/Model/SemPost.lean.
-/
import Verif.Spec.SpmdCtl
import Verif.Model.Report

namespace Cafes.Spmd
open Cafes Cafes.Particle Cafes.Driver Cafes.Geometry

/-- What the user has been told: the velocities, the forces, the torques. -/
structure Told (d : ℕ) (A : Type) where
  vel : List (Pos d ℝ)
  forces : List (Pos d ℝ)
  torques : List A

variable {d N : ℕ} {A : Type} [AddCommGroup A] [Module ℝ A] (D : Setup d N A)
  (slv : NodeVec d d ℝ × NodeVec d 1 ℝ → NodeVec d d ℝ × NodeVec d 1 ℝ)

/-- A task on whole vectors. -/
noncomputable def Task.run : Task → Ctl d × Told d A → Ctl d × Told d A
  | .cmd c, t => (c.run D slv t.1, t.2)
  | .velocities, t => (t.1, { t.2 with vel := (D.newVelocities t.1.fSol.1 0).map fun p => p.velocity })
  | .forces, t => (t.1, { t.2 with
      forces := (List.range D.parts.length).map fun i => (D.newForces (t.1.v 0) i).1
      torques := (List.range D.parts.length).map fun i => (D.newForces (t.1.v 0) i).2 })

/-- The tasks of a session, in order. -/
noncomputable def tasksRun (ts : List Task) (t : Ctl d × Told d A) : Ctl d × Told d A :=
  ts.foldl (fun t k => k.run D slv t) t

/-- All the processes have been told the same. -/
def Agreed (told : Told d A) (σ : Rank D.L → RMem d A) : Prop :=
  ∀ r, (σ r).vel = told.vel ∧ (σ r).forces = told.forces ∧ (σ r).torques = told.torques

/-- The same problem with other velocities of the particles. -/
def withVelocities (f : ℕ → Pos d ℝ) : Setup d N A :=
  { D with parts := D.parts.zipIdx.map fun p => { p.1 with velocity := f p.2 } }

end Cafes.Spmd
