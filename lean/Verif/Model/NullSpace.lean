/-
Model of the null space attached to the assembled Stokes matrix: `CreatePressureNullSpace`
(cafes/problem/stokes.hpp:371-397) and the PETSc calls it uses.
-/
import Mathlib.Analysis.SpecialFunctions.Pow.Real
import Verif.Model.Assemble
import Verif.Spec.Assemble

namespace Cafes

/-- `VecNormalize` (contract of PETSc): a vector of norm zero is left as it is. -/
noncomputable def vecNormalize (S : Finset Dof) (x : Dof → ℝ) : Dof → ℝ :=
  let norm := Real.sqrt (∑ q ∈ S, x q ^ 2)
  if norm = 0 then x else fun q => x q / norm

/-- The vector `tmp` of `CreatePressureNullSpace` (cafes/problem/stokes.hpp:380-390): `VecSet(tmp, 0.)`, then
`fill_global(1.)` on the entry 1 (the pressure) of the composite vector, then `VecNormalize`. -/
noncomputable def pressureNullSpace (Lv Lp : Fin 2 → Dir) : Dof → ℝ :=
  let tmp : Dof → ℝ := fun _ => 0
  let tmp : Dof → ℝ := Sum.elim (fun gc => tmp (.inl gc)) (fun _ => 1)
  vecNormalize (dofs Lv Lp) tmp

/-- `MatNullSpaceRemove` for the null space of one unit vector `n` and `has_cnst = PETSC_FALSE`
(cafes/problem/stokes.hpp:392-395; contract of PETSc: applied by the Krylov solver to its vectors). -/
noncomputable def matNullSpaceRemove (S : Finset Dof) (n x : Dof → ℝ) : Dof → ℝ :=
  fun q => x q - (∑ q' ∈ S, x q' * n q') * n q

/-- The matrix `A` of `stokes` with `-assembling` after `SetDirichletOnMat` (cafes/problem/stokes.hpp:246-276), in the
strain tensor or Laplacian form. -/
noncomputable def stokesMat (strain : Bool) (Lv Lp : Fin 2 → Dir) (rs : List (Fin 2 → ℕ)) (h : Pos 2 ℝ) : Option (GMat ℝ) :=
  setDirichletOnMat Lv Lp rs (if strain then stokesAssembledStrain Lv Lp rs h else stokesAssembled Lv Lp rs h)

end Cafes
