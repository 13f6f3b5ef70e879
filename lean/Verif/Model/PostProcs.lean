/-
Model of `linear_interpolation` (cafes/posttraitement/interpolation.hpp) on several processes.
-/
import Verif.Model.Post
import Verif.Model.AddSing

namespace Cafes
variable {n : ℕ}

/-- The loop of `linear_interpolation` on the process of grid coordinates `p` (cafes/posttraitement/interpolation.hpp:
97-134): ghost update of the solution, then the kernel on the elements of the process, in its local array of the fine
mesh, whose previous content is `y0` (`DMGetLocalVector`, cafes/petsc/vec.hpp:103, does not clear it). -/
noncomputable def interpLocal (L : Fin 2 → Dir) (p : Fin 2 → ℕ) (h : Pos 2 ℝ) (refine : Fin 2 → ℕ) (u y0 : NodeVec 2 n ℝ) :
    NodeVec 2 n ℝ :=
  iterate (getDMBounds L p true) (interpKernel h refine (globalToLocal L u)) y0

/-- `linear_interpolation` for the velocity (cafes/posttraitement/interpolation.hpp:70-145), 2D, on any number of
processes: every process runs the loop on its elements of the mesh `L`, then `local_to_global(INSERT_VALUES)` keeps
from each local array the nodes that the process owns in the fine mesh `F`. The ownership ranges of `F` are chosen by
PETSc (`DMRefine`, line 85): `F` is arbitrary here. -/
noncomputable def linearInterpolationProcs (L F : Fin 2 → Dir) (h : Pos 2 ℝ) (refine : Fin 2 → ℕ) (u : NodeVec 2 n ℝ)
    (y0 : (Fin 2 → ℕ) → NodeVec 2 n ℝ) : NodeVec 2 n ℝ :=
  AddSing.localToGlobalInsert F fun p => interpLocal L p h refine u (y0 p)

end Cafes
