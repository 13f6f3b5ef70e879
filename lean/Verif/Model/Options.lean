/-
Model of cafes/problem/options.hpp and of the part of the constructor of `stokes` that turns the options into
a discrete problem (cafes/problem/stokes.hpp:207-308).
-/
import Verif.Model.Assemble
import Verif.Model.Dirichlet
import Mathlib.Data.Real.Basic

namespace Cafes.Opt
open Cafes

/-- The database of options of PETSc: what the command line gives to each name (`PetscOptionsInt`,
`PetscOptionsReal`, `PetscOptionsBool`). -/
structure Db where
  int : String → Option ℤ
  real : String → Option ℝ
  bool : String → Option Bool

/-- `options` (options.hpp:40-48). -/
structure Options (d : ℕ) where
  mx : Fin d → ℤ
  lx : Fin d → ℝ
  xperiod : Fin d → Bool
  strainTensor : Bool
  assembling : Bool
  pmm : Bool

/-- The constructor of `options` (options.hpp:45-54). -/
def Options.init (d : ℕ) : Options d := ⟨fun _ => 17, fun _ => 1, fun _ => false, false, false, false⟩

/-- `PetscOptionsInt(name, …, mx[i], &mx[i], nullptr)`: unchanged when the option is not given. -/
def readInt {d : ℕ} (db : Db) (name : String) (i : Fin d) (o : Options d) : Options d :=
  { o with mx := Function.update o.mx i ((db.int name).getD (o.mx i)) }

/-- `PetscOptionsReal(name, …, lx[i], &lx[i], nullptr)`. -/
def readReal {d : ℕ} (db : Db) (name : String) (i : Fin d) (o : Options d) : Options d :=
  { o with lx := Function.update o.lx i ((db.real name).getD (o.lx i)) }

/-- `PetscOptionsBool(name, …, xperiod[i], &xperiod[i], nullptr)`. -/
def readPeriod {d : ℕ} (db : Db) (name : String) (i : Fin d) (o : Options d) : Options d :=
  { o with xperiod := Function.update o.xperiod i ((db.bool name).getD (o.xperiod i)) }

/-- `process_options_` in 2D (options.hpp:58-105). -/
def process2 (db : Db) (o : Options 2) : Options 2 :=
  let o := readInt db "-mx" 0 o
  let o := readInt db "-my" 1 o
  let o := readReal db "-Lx" 0 o
  let o := readReal db "-Ly" 1 o
  let o := readPeriod db "-xperiod" 0 o
  let o := readPeriod db "-yperiod" 1 o
  let o : Options 2 := { o with strainTensor := (db.bool "-strain_tensor").getD o.strainTensor }
  let o : Options 2 := { o with assembling := (db.bool "-assembling").getD o.assembling }
  { o with pmm := (db.bool "-PMM").getD o.pmm }

/-- `process_options_` in 3D (options.hpp:109-168). -/
def process3 (db : Db) (o : Options 3) : Options 3 :=
  let o := readInt db "-mx" 0 o
  let o := readInt db "-my" 1 o
  let o := readInt db "-mz" 2 o
  let o := readReal db "-Lx" 0 o
  let o := readReal db "-Ly" 1 o
  let o := readReal db "-Lz" 2 o
  let o := readPeriod db "-xperiod" 0 o
  let o := readPeriod db "-yperiod" 1 o
  let o := readPeriod db "-zperiod" 2 o
  let o : Options 3 := { o with strainTensor := (db.bool "-strain_tensor").getD o.strainTensor }
  let o : Options 3 := { o with assembling := (db.bool "-assembling").getD o.assembling }
  { o with pmm := (db.bool "-PMM").getD o.pmm }

/-- The step of the pressure grid, `hp` (stokes.hpp:222). -/
noncomputable def hp {d : ℕ} (o : Options d) : Pos d ℝ := fun i => o.lx i / (((o.mx i - 1 : ℤ)) : ℝ)

/-- The step of the velocity grid, `hu` (stokes.hpp:223). -/
noncomputable def hu {d : ℕ} (o : Options d) : Pos d ℝ := fun i => 1 / 2 * hp o i

/-- The velocity grid of the mesh made by `createMesh(mesh, opt.mx, opt.xperiod)` (stokes.hpp:212-213), `lx`
being the distribution PETSc chooses. -/
def velGrid {d : ℕ} (o : Options d) (lx : Fin d → List ℤ) : Fin d → Dir :=
  fun i => velDir (o.mx i) (o.xperiod i) (lx i)

/-- Its pressure grid. -/
def presGrid {d : ℕ} (o : Options d) (lx : Fin d → List ℤ) : Fin d → Dir :=
  fun i => presDir (o.mx i) (o.xperiod i) (lx i)

/-- The matrix-free operator `A` of the constructor in 2D (stokes.hpp:226-238, 284): `method` is
`strain_tensor_mult` or `laplacian_mult`, the context has the boundary conditions. -/
noncomputable def operator2 (o : Options 2) (lx : Fin 2 → List ℤ) (rs : List (Fin 2 → ℕ)) (bc : BC 2 ℝ) :
    NodeVec 2 2 ℝ → NodeVec 2 1 ℝ → NodeVec 2 2 ℝ × NodeVec 2 1 ℝ :=
  stokesMatrixBC (velGrid o lx) (presGrid o lx) rs bc
    (if o.strainTensor then tensorBlockMult (velGrid o lx) getElement2 (matElemStrain2 (hu o))
      else diagBlockMult (velGrid o lx) getElement2 (matElemLaplacian2 (hu o)))
    getElement2 getElement4Q1_2 (matElemPressure2 (hu o))

/-- The same in 3D. -/
noncomputable def operator3 (o : Options 3) (lx : Fin 3 → List ℤ) (rs : List (Fin 3 → ℕ)) (bc : BC 3 ℝ) :
    NodeVec 3 3 ℝ → NodeVec 3 1 ℝ → NodeVec 3 3 ℝ × NodeVec 3 1 ℝ :=
  stokesMatrixBC (velGrid o lx) (presGrid o lx) rs bc
    (if o.strainTensor then tensorBlockMult (velGrid o lx) getElement3 (matElemStrain3 (hu o))
      else diagBlockMult (velGrid o lx) getElement3 (matElemLaplacian3 (hu o)))
    getElement3 getElement4Q1_3 (matElemPressure3 (hu o))

/-- The assembled matrix `A` of the constructor (stokes.hpp:246-281), 2D: the 3D element loops of the
assembling functions are the same code with other tables and are not modelled. -/
noncomputable def assembled2 (o : Options 2) (lx : Fin 2 → List ℤ) (rs : List (Fin 2 → ℕ)) :
    Option (GMat ℝ) :=
  setDirichletOnMat (velGrid o lx) (presGrid o lx) rs
    (if o.strainTensor then stokesAssembledStrain (velGrid o lx) (presGrid o lx) rs (hu o)
      else stokesAssembled (velGrid o lx) (presGrid o lx) rs (hu o))

end Cafes.Opt
