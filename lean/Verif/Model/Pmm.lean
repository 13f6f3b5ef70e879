/-
Model of the preconditioner chosen by `setPMMSolver` (cafes/problem/stokes.hpp:95-190) for the matrix-free
Stokes system: `PCFIELDSPLIT`, Schur complement, upper factor, with the off-diagonal blocks of the system matrix.

The class `PCFieldSplit` is PETSc's: what is modelled is its documented action with the settings of lines 110-114 and
147-160. With `PC_FIELDSPLIT_SCHUR_FACT_UPPER` the pressure part is treated first, by the sub-solver 1, then the
velocity part, by the sub-solver 0, on the residual corrected with the block `(velocity, pressure)` of the system matrix
(`PCFieldSplitSetOffDiagUseAmat`). The sub-solver 1 is `KSPPREONLY` with `PCJACOBI`: a division by the diagonal of the
matrix of the Schur complement, which is the block `(1, 1)` of the preconditioning matrix (`SCHUR_PRE_USER` without a
matrix). The velocity sub-solver (GCR with multigrid, tolerance 1e-2) is a parameter `solve`.
-/
import Verif.Model.Dirichlet

namespace Cafes.Pmm
open Cafes

variable {d : ℕ} {K : Type*} [Field K]

/-- One application of the preconditioner of `setPMMSolver` (cafes/problem/stokes.hpp:107-160) to a residual `r` (a
velocity part and a pressure part): `D` is the diagonal of the pressure block of the preconditioning matrix, `solve` the
velocity sub-solver. The block `(velocity, pressure)` of the shell matrix is its action on `(0, p)`. -/
def pmm {NP NV : ℕ} (Lv Lp : Fin d → Dir) (rs : List (Fin d → ℕ)) (bc : BC d K)
    (apply : (Fin d → ℕ) → NodeVec d d K → NodeVec d d K → NodeVec d d K)
    (elemP : Pos d ℤ → Fin NP → Pos d ℤ) (elemV : Pos d ℤ → Fin NV → Pos d ℤ)
    (B : Fin NP → Fin NV → Fin d → K) (D : NodeVec d 1 K) (solve : NodeVec d d K → NodeVec d d K)
    (r : NodeVec d d K × NodeVec d 1 K) : NodeVec d d K × NodeVec d 1 K :=
  let p : NodeVec d 1 K := fun q c => r.2 q c / D q c
  (solve (r.1 - (stokesMatrixBC Lv Lp rs bc apply elemP elemV B 0 p).1), p)

/-- The mesh steps of the pressure, `hp = 2 hu` (cafes/problem/stokes.hpp:219-225). -/
def hp (h : Pos d K) : Pos d K := fun c => 2 * h c

/-- The velocity operator `method`: the strain tensor or the Laplacian (cafes/problem/stokes.hpp:227-236), 2D. -/
def method2 (strain : Bool) (Lv : Fin 2 → Dir) (h : Pos 2 K) :
    (Fin 2 → ℕ) → NodeVec 2 2 K → NodeVec 2 2 K → NodeVec 2 2 K :=
  if strain then tensorBlockMult Lv getElement2 (matElemStrain2 h) else diagBlockMult Lv getElement2 (matElemLaplacian2 h)

/-- The velocity block `A11` of the preconditioning matrix, with the rows of the boundary conditions
(cafes/problem/stokes.hpp:291-293), 2D. -/
def velBlock2 (strain : Bool) (Lv : Fin 2 → Dir) (rs : List (Fin 2 → ℕ)) (bc : BC 2 K) (h : Pos 2 K) :
    NodeVec 2 2 K → NodeVec 2 2 K :=
  blockMatrixBC Lv rs bc (method2 strain Lv h)

/-- The Stokes matrix `A` of the constructor (cafes/problem/stokes.hpp:238-239, 282-284), 2D. -/
def system2 (strain : Bool) (Lv Lp : Fin 2 → Dir) (rs : List (Fin 2 → ℕ)) (bc : BC 2 K) (h : Pos 2 K)
    (x : NodeVec 2 2 K × NodeVec 2 1 K) : NodeVec 2 2 K × NodeVec 2 1 K :=
  stokesMatrixBC Lv Lp rs bc (method2 strain Lv h) getElement2 getElement4Q1_2 (matElemPressure2 h) x.1 x.2

/-- The preconditioner of the 2D system: the pressure block of the preconditioning matrix is the mass operator of step
`hp`, with its diagonal `diag_mass_mult` (cafes/problem/stokes.hpp:295-296). -/
def pmm2 (strain : Bool) (Lv Lp : Fin 2 → Dir) (rs : List (Fin 2 → ℕ)) (bc : BC 2 K) (h : Pos 2 K)
    (solve : NodeVec 2 2 K → NodeVec 2 2 K) :
    NodeVec 2 2 K × NodeVec 2 1 K → NodeVec 2 2 K × NodeVec 2 1 K :=
  pmm Lv Lp rs bc (method2 strain Lv h) getElement2 getElement4Q1_2 (matElemPressure2 h) (diagMass2 Lp (hp h)) solve

/-- The velocity operator `method`: the strain tensor or the Laplacian (cafes/problem/stokes.hpp:227-236), 3D. -/
def method3 (strain : Bool) (Lv : Fin 3 → Dir) (h : Pos 3 K) :
    (Fin 3 → ℕ) → NodeVec 3 3 K → NodeVec 3 3 K → NodeVec 3 3 K :=
  if strain then tensorBlockMult Lv getElement3 (matElemStrain3 h) else diagBlockMult Lv getElement3 (matElemLaplacian3 h)

/-- The velocity block `A11` of the preconditioning matrix, with the rows of the boundary conditions
(cafes/problem/stokes.hpp:291-293), 3D. -/
def velBlock3 (strain : Bool) (Lv : Fin 3 → Dir) (rs : List (Fin 3 → ℕ)) (bc : BC 3 K) (h : Pos 3 K) :
    NodeVec 3 3 K → NodeVec 3 3 K :=
  blockMatrixBC Lv rs bc (method3 strain Lv h)

/-- The Stokes matrix `A` of the constructor (cafes/problem/stokes.hpp:238-239, 282-284), 3D. -/
def system3 (strain : Bool) (Lv Lp : Fin 3 → Dir) (rs : List (Fin 3 → ℕ)) (bc : BC 3 K) (h : Pos 3 K)
    (x : NodeVec 3 3 K × NodeVec 3 1 K) : NodeVec 3 3 K × NodeVec 3 1 K :=
  stokesMatrixBC Lv Lp rs bc (method3 strain Lv h) getElement3 getElement4Q1_3 (matElemPressure3 h) x.1 x.2

/-- The preconditioner of the 3D system: the pressure block of the preconditioning matrix is the mass operator of step
`hp`, with its diagonal `diag_mass_mult` (cafes/problem/stokes.hpp:295-296). -/
def pmm3 (strain : Bool) (Lv Lp : Fin 3 → Dir) (rs : List (Fin 3 → ℕ)) (bc : BC 3 K) (h : Pos 3 K)
    (solve : NodeVec 3 3 K → NodeVec 3 3 K) :
    NodeVec 3 3 K × NodeVec 3 1 K → NodeVec 3 3 K × NodeVec 3 1 K :=
  pmm Lv Lp rs bc (method3 strain Lv h) getElement3 getElement4Q1_3 (matElemPressure3 h) (diagMass3 Lp (hp h)) solve

end Cafes.Pmm
