/-
Specification vocabulary for particles: grid points, cells, sub-grid points.
-/
import Verif.Spec.Operator
import Mathlib.Algebra.Order.Floor.Defs
import Mathlib.Data.Real.Archimedean

namespace Cafes.Particle
open Cafes
variable {d : ℕ}

/-- The coordinates of the grid node of index `p` for the mesh step `h`. -/
noncomputable def node (h : Pos d ℝ) (p : Pos d ℤ) : Pos d ℝ := fun i => p i * h i

/-- The index of the grid cell `[c h, (c+1) h)` containing the point `x`. -/
noncomputable def cell (h x : Pos d ℝ) : Pos d ℤ := fun i => ⌊x i / h i⌋

/-- The coordinates of the point of index `q` of the grid refined `m` times. -/
noncomputable def subNode (h : Pos d ℝ) (m : ℕ) (q : Pos d ℤ) : Pos d ℝ := fun i => q i * (h i / m)

/-- The points of the refined grid in the elements of the mesh. -/
def subGrid (L : Fin d → Dir) (m : ℕ) : Finset (Pos d ℤ) :=
  Fintype.piFinset fun i => Finset.Ico 0 ((L i).nElem * m)

end Cafes.Particle
