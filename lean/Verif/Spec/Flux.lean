/-
Specification: flux of a nodal velocity field through the walls of the grid, by the trapezoidal rule
on the nodes of each wall.
-/
import Mathlib.Data.Real.Basic
import Verif.Model.Operator
import Verif.Spec.Operator

namespace Cafes

/-- Trapezoidal weight of the node `g` of a direction: one half at the two ends, one elsewhere and in
a periodic direction. -/
noncomputable def trapezoid (D : Dir) (g : ℤ) : ℝ :=
  if D.periodic = false ∧ (g = 0 ∨ g = D.m - 1) then 1 / 2 else 1

/-- Outward normal of the walls of a direction: `-1` on the lower wall, `1` on the upper one, zero at
the other nodes and in a periodic direction. -/
noncomputable def outward (D : Dir) (g : ℤ) : ℝ :=
  if D.periodic = true then 0 else (if g = D.m - 1 then 1 else 0) - (if g = 0 then 1 else 0)

/-- Flux of the velocity `u` out of the walls of the grid with steps `h`. -/
noncomputable def wallFlux {d : ℕ} (L : Fin d → Dir) (h : Pos d ℝ) (u : NodeVec d d ℝ) : ℝ :=
  ∑ a : Fin d, ∑ g ∈ gridNodes L,
    outward (L a) (g a) * u g a * ∏ j ∈ Finset.univ.erase a, trapezoid (L j) (g j) * h j

end Cafes
