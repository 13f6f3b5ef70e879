/-
Model of the multigrid set-up of the Stokes solver: cafes/problem/stokes.hpp, `createLevelMatrices` (49-92) and the
number of levels of `setPMMSolver` (94-186).
-/
import Mathlib.Data.Nat.Sqrt
import Mathlib.Algebra.Field.Defs

namespace Cafes.Multigrid

/-- The smallest direction (cafes/problem/stokes.hpp:133-134): `mz` is 1 for plane meshes. -/
def smallestDir (mx my mz : ℕ) : ℕ :=
  let i := if mx < my then mx else my
  if mz = 1 ∨ i < mz then i else mz

/-- The loop `while (i > 8) { i >>= 1; MGlevels++; }` (cafes/problem/stokes.hpp:136-141) from the value `levels`. -/
def mgLoop (i levels : ℕ) : ℕ := if 8 < i then mgLoop (i >>> 1) (levels + 1) else levels
termination_by i
decreasing_by simp [Nat.shiftRight_eq_div_pow]; omega

/-- `MGlevels` (cafes/problem/stokes.hpp:132-141). -/
def mgLevels (mx my mz : ℕ) : ℕ := mgLoop (smallestDir mx my mz) 1

/-- `int nx = sqrt(totalsize/2)` (cafes/problem/stokes.hpp:68): C++ integer division, square root truncated.
Simplification: the floating point square root is exact on the integers considered. -/
def sizeRoot (totalsize : ℕ) : ℕ := Nat.sqrt (totalsize / 2)

/-- The loop `while (nx_0 != nx) { level++; nx_0 = (nx_0+1)/Dim; }` (cafes/problem/stokes.hpp:71-75), big step:
`LevelLoop Dim nx nx0 level r` when the loop started with `nx_0 = nx0` and `level` ends with `level = r`. -/
inductive LevelLoop (Dim nx : ℕ) : ℕ → ℕ → ℕ → Prop
  | stop (level : ℕ) : LevelLoop Dim nx nx level level
  | step (nx0 level r : ℕ) (hne : nx0 ≠ nx) (h : LevelLoop Dim nx ((nx0 + 1) / Dim) (level + 1) r) :
      LevelLoop Dim nx nx0 level r

/-- The level found by `createLevelMatrices` (cafes/problem/stokes.hpp:60-75) for a mesh of `total` unknowns, the finest
one having `total0`: `LevelOf Dim total0 total r` when the search ends with `r`. -/
def LevelOf (Dim total0 total r : ℕ) : Prop := LevelLoop Dim (sizeRoot total) (sizeRoot total0) 0 r

/-- The step given to the operator of the level (cafes/problem/stokes.hpp:77-78): here the lambda takes its argument by
reference. -/
def levelStep {K : Type*} [Field K] {d : ℕ} (h : Fin d → K) (level : ℕ) : Fin d → K := fun i => h i * (2 ^ level : ℕ)

end Cafes.Multigrid
