/-
Model of `NtoD_matrix` (cafes/problem/ntod.hpp:41-141) on several processes: each process has its own copy of the particles,
and copies into them, from its part of the vector `x`, the velocities of the particles whose box meets its box.

As in Verif/Model/NtodDriver.lean, the types that do not agree in the source are taken as if they did, and a particle has
`m = D + T` components: its velocity, then its angular velocity.
-/
import Verif.Model.Ntod
import Mathlib.Data.Real.Basic

namespace Cafes.Ntod

/-- The copy of the velocities on one process (ntod.hpp:77-92, 277-287): `px` is the local array, `vel i k` the component
`k` of the particle `i` of this process. The second component of the state is `num`. -/
def readVel (m n : ℕ) (inter : ℕ → Bool) (px : ℕ → ℝ) (vel : ℕ → ℕ → ℝ) : (ℕ → ℕ → ℝ) × ℕ :=
  (List.range n).foldl (fun (s : (ℕ → ℕ → ℝ) × ℕ) (i : ℕ) =>
    if inter i then
      (List.range m).foldl (fun (s : (ℕ → ℕ → ℝ) × ℕ) (k : ℕ) =>
        (Function.update s.1 i (Function.update (s.1 i) k (px s.2)), s.2 + 1)) s
    else s) (vel, 0)

/-- The copy of the forces and torques `f i k` into the local array `py` (ntod.hpp:121-136). -/
def writeForce (m n : ℕ) (inter : ℕ → Bool) (f : ℕ → ℕ → ℝ) (py : ℕ → ℝ) : (ℕ → ℝ) × ℕ :=
  (List.range n).foldl (fun (s : (ℕ → ℝ) × ℕ) (i : ℕ) =>
    if inter i then
      (List.range m).foldl (fun (s : (ℕ → ℝ) × ℕ) (k : ℕ) => (Function.update s.1 s.2 (f i k), s.2 + 1)) s
    else s) (py, 0)

/-- A vector of NtoD distributed on the processes `R`: the local sizes are those of `create_Mat_and_Vec`
(ntod.hpp:190-204). -/
abbrev NVec {R : Type*} (D T n : ℕ) (inter : R → ℕ → Bool) := (r : R) → Fin (localSize D T n (inter r)) → ℝ

/-- The velocities held by the process `r` after the copy. -/
def heldVel {R : Type*} {D T n : ℕ} {inter : R → ℕ → Bool} (old : R → ℕ → ℕ → ℝ) (x : NVec D T n inter) (r : R) :
    ℕ → ℕ → ℝ :=
  (readVel (D + T) n (inter r) (fun s => if h : s < localSize D T n (inter r) then x r ⟨s, h⟩ else 0) (old r)).1

/-- `NtoD_matrix` with `compute_rhs` off (ntod.hpp:41-141). `force` is the DtoN problem followed by the sums of
`forces_torques_with_control` over the processes (forces_torques.hpp:72-105), `sing` the singular forces, which each process
adds after the sums from its own particles (forces_torques.hpp:107-120). -/
def ntodProcs {R : Type*} {D T n : ℕ} {inter : R → ℕ → Bool} (force : (R → ℕ → ℕ → ℝ) → ℕ → ℕ → ℝ)
    (sing : (ℕ → ℕ → ℝ) → ℕ → ℕ → ℝ) (old : R → ℕ → ℕ → ℝ) (x : NVec D T n inter) : NVec D T n inter := fun r s =>
  (writeForce (D + T) n (inter r)
    (fun i k => force (heldVel old x) i k + sing (heldVel old x r) i k) (fun _ => 0)).1 s

end Cafes.Ntod
