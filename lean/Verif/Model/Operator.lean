/-
Model of the matrix-free operators: cafes/fem/operator.hpp, cafes/fem/matrixFree.hpp, and of the
PETSc vector transfers of cafes/petsc/vec.hpp.

A vector of a DMDA is a function from nodes and components to the scalars. Local (ghosted) arrays
are indexed like the C++ code does, by global node coordinates that may fall outside `[0, M)` in
periodic directions (`petsc_vec::at`, cafes/petsc/vec.hpp:120-150); reads and writes outside the
ghosted window are excluded by the C04 theorems.
-/
import Verif.Spec.Mesh
import Verif.Model.Iterate
import Verif.Model.MatElem
import Mathlib.Algebra.Ring.Defs
import Mathlib.Algebra.BigOperators.Fin

namespace Cafes

/-- Nodal vector with `n` components per node. -/
abbrev NodeVec (d n : ℕ) (K : Type*) := Pos d ℤ → Fin n → K

section
variable {d n N : ℕ} {K : Type*}

/-- `u = y.at(p); u[c] += v` (used throughout cafes/fem/operator.hpp). -/
def addAt [Add K] (y : NodeVec d n K) (p : Pos d ℤ) (c : Fin n) (v : K) : NodeVec d n K :=
  fun q e => if q = p ∧ e = c then y q e + v else y q e

variable [CommRing K]

/-- `kernel_diag_block` (cafes/fem/operator.hpp:48-68); `elem` is `get_element`. -/
def kernelDiagBlock (elem : Pos d ℤ → Fin N → Pos d ℤ) (M : Fin N → Fin N → K) (x : NodeVec d n K)
    (pos : Pos d ℤ) (y : NodeVec d n K) : NodeVec d n K :=
  (List.finRange N).foldl (fun y k1 =>
    (List.finRange N).foldl (fun y k2 =>
      (List.finRange n).foldl (fun y c =>
        addAt y (elem pos k1) c (x (elem pos k2) c * M k1 k2)) y) y) y

/-- `kernel_tensor_block` (cafes/fem/operator.hpp:70-93). -/
def kernelTensorBlock (elem : Pos d ℤ → Fin N → Pos d ℤ) (M : Fin N → Fin N → Fin n → Fin n → K)
    (x : NodeVec d n K) (pos : Pos d ℤ) (y : NodeVec d n K) : NodeVec d n K :=
  (List.finRange N).foldl (fun y k1 =>
    (List.finRange N).foldl (fun y k2 =>
      (List.finRange n).foldl (fun y d1 =>
        (List.finRange n).foldl (fun y d2 =>
          addAt y (elem pos k1) d1 (x (elem pos k2) d2 * M k1 k2 d1 d2)) y) y) y) y

/-- `kernel_diag_diag_block` (cafes/fem/operator.hpp:95-110). -/
def kernelDiagDiagBlock (elem : Pos d ℤ → Fin N → Pos d ℤ) (M : Fin N → Fin N → K)
    (pos : Pos d ℤ) (y : NodeVec d n K) : NodeVec d n K :=
  (List.finRange N).foldl (fun y ie =>
    (List.finRange n).foldl (fun y c => addAt y (elem pos ie) c (M ie ie)) y) y

/-- `kernel_off_diag_block` (cafes/fem/operator.hpp:112-138): `elemP` is `get_element`, `elemV` is
`get_element_4Q1`, the state is the pair of outputs `(y1, y2)` = (velocity, pressure). -/
def kernelOffDiagBlock {NP NV : ℕ} (elemP : Pos d ℤ → Fin NP → Pos d ℤ)
    (elemV : Pos d ℤ → Fin NV → Pos d ℤ) (B : Fin NP → Fin NV → Fin n → K)
    (x1 : NodeVec d n K) (x2 : NodeVec d 1 K) (pos : Pos d ℤ)
    (y : NodeVec d n K × NodeVec d 1 K) : NodeVec d n K × NodeVec d 1 K :=
  (List.finRange NV).foldl (fun y iv =>
    (List.finRange NP).foldl (fun y ip =>
      (List.finRange n).foldl (fun y c =>
        (addAt y.1 (elemV pos iv) c (-(x2 (elemP pos ip) 0 * B ip iv c)),
         addAt y.2 (elemP pos ip) 0 (x1 (elemV pos iv) c * B ip iv c))) y) y) y

/-- The grid node behind a local (possibly ghost) index: periodic wrap-around
(contract of `DM_BOUNDARY_PERIODIC`). -/
def wrap (L : Fin d → Dir) (p : Pos d ℤ) : Pos d ℤ :=
  fun i => if (L i).periodic then p i % (L i).m else p i

/-- `global_to_local(INSERT_VALUES)` (cafes/petsc/vec.hpp:180-190): every ghosted local entry
receives the value of the grid node behind it. -/
def globalToLocal (L : Fin d → Dir) (x : NodeVec d n K) : NodeVec d n K := fun p => x (wrap L p)

/-- `local_to_global(ADD_VALUES)` (cafes/petsc/vec.hpp:168-178) of the local arrays `yl r` of all the
processes: every local entry (ghosts included) is added to the grid node behind it. -/
def localToGlobalAdd (L : Fin d → Dir) (yl : (Fin d → ℕ) → NodeVec d n K) (y0 : NodeVec d n K) :
    NodeVec d n K :=
  fun g c => y0 g c + ∑ r ∈ procs L, ∑ p ∈ (ghostWindow L r).visited.toFinset,
    if wrap L p = g then yl r p c else 0

/-- `diag_block_mult` with `kernel_diag_block` on process `r` (cafes/fem/operator.hpp:140-156). -/
def diagBlockMult (L : Fin d → Dir) (elem : Pos d ℤ → Fin N → Pos d ℤ) (M : Fin N → Fin N → K)
    (r : Fin d → ℕ) (x y : NodeVec d n K) : NodeVec d n K :=
  iterate (getDMBounds L r true) (kernelDiagBlock elem M x) y

/-- `diag_block_mult` with `kernel_tensor_block` on process `r` (cafes/fem/operator.hpp:140-156). -/
def tensorBlockMult (L : Fin d → Dir) (elem : Pos d ℤ → Fin N → Pos d ℤ)
    (M : Fin N → Fin N → Fin n → Fin n → K)
    (r : Fin d → ℕ) (x y : NodeVec d n K) : NodeVec d n K :=
  iterate (getDMBounds L r true) (kernelTensorBlock elem M x) y

/-- `diag_diag_block_mult` (cafes/fem/operator.hpp:158-173). -/
def diagDiagBlockMult (L : Fin d → Dir) (elem : Pos d ℤ → Fin N → Pos d ℤ) (M : Fin N → Fin N → K)
    (r : Fin d → ℕ) (y : NodeVec d n K) : NodeVec d n K :=
  iterate (getDMBounds L r true) (kernelDiagDiagBlock elem M) y

/-- `off_diag_block_mult` (cafes/fem/operator.hpp:175-194): the loop is over the pressure box. -/
def offDiagBlockMult {NP NV : ℕ} (Lp : Fin d → Dir) (elemP : Pos d ℤ → Fin NP → Pos d ℤ)
    (elemV : Pos d ℤ → Fin NV → Pos d ℤ) (B : Fin NP → Fin NV → Fin n → K) (r : Fin d → ℕ)
    (x1 : NodeVec d n K) (x2 : NodeVec d 1 K) (y : NodeVec d n K × NodeVec d 1 K) :
    NodeVec d n K × NodeVec d 1 K :=
  iterate (getDMBounds Lp r true) (kernelOffDiagBlock elemP elemV B x1 x2) y

/-- `diag_block_matrix` without boundary conditions (cafes/fem/matrixFree.hpp:44-80): zero the
output, fetch the ghosts of `x`, apply the local operator on every process on a zeroed local array,
add the local results. -/
def blockMatrix (L : Fin d → Dir)
    (apply : (Fin d → ℕ) → NodeVec d n K → NodeVec d n K → NodeVec d n K)
    (x : NodeVec d n K) : NodeVec d n K :=
  localToGlobalAdd L (fun r => apply r (globalToLocal L x) 0) 0

/-- `diag_diag_block_matrix` (cafes/fem/matrixFree.hpp:124-152). -/
def diagMatrix (L : Fin d → Dir)
    (applyDiag : (Fin d → ℕ) → NodeVec d n K → NodeVec d n K) : NodeVec d n K :=
  localToGlobalAdd L (fun r => applyDiag r 0) 0

/-- `stokes_matrix` without boundary conditions (cafes/fem/matrixFree.hpp:196-246): `apply` is the
velocity operator, then `B_and_BT_mult`. -/
def stokesMatrix {NP NV : ℕ} (Lv Lp : Fin d → Dir)
    (apply : (Fin d → ℕ) → NodeVec d n K → NodeVec d n K → NodeVec d n K)
    (elemP : Pos d ℤ → Fin NP → Pos d ℤ)
    (elemV : Pos d ℤ → Fin NV → Pos d ℤ) (B : Fin NP → Fin NV → Fin n → K)
    (x1 : NodeVec d n K) (x2 : NodeVec d 1 K) : NodeVec d n K × NodeVec d 1 K :=
  let loc := fun r =>
    let y1 := apply r (globalToLocal Lv x1) 0
    offDiagBlockMult Lp elemP elemV B r (globalToLocal Lv x1) (globalToLocal Lp x2) (y1, 0)
  (localToGlobalAdd Lv (fun r => (loc r).1) 0, localToGlobalAdd Lp (fun r => (loc r).2) 0)

/-- `B_and_BT_mult` (cafes/fem/operator.hpp:284-300) run on every process on zeroed local outputs and
added to the global vectors: the off diagonal part of `stokes_matrix`. -/
def offDiagMatrix {NP NV : ℕ} (Lv Lp : Fin d → Dir) (elemP : Pos d ℤ → Fin NP → Pos d ℤ)
    (elemV : Pos d ℤ → Fin NV → Pos d ℤ) (B : Fin NP → Fin NV → Fin n → K)
    (x1 : NodeVec d n K) (x2 : NodeVec d 1 K) : NodeVec d n K × NodeVec d 1 K :=
  stokesMatrix Lv Lp (fun _ _ y => y) elemP elemV B x1 x2

end

section
variable {n : ℕ} {K : Type*} [Field K]

/-- Shell matrix with `laplacian_mult` (cafes/fem/operator.hpp:196-210), 2D. -/
def laplacian2 (L : Fin 2 → Dir) (h : Pos 2 K) : NodeVec 2 n K → NodeVec 2 n K :=
  blockMatrix L (diagBlockMult L getElement2 (matElemLaplacian2 h))
/-- Shell matrix with `laplacian_mult` (cafes/fem/operator.hpp:196-210), 3D. -/
def laplacian3 (L : Fin 3 → Dir) (h : Pos 3 K) : NodeVec 3 n K → NodeVec 3 n K :=
  blockMatrix L (diagBlockMult L getElement3 (matElemLaplacian3 h))
/-- Shell matrix with `mass_mult` (cafes/fem/operator.hpp:230-243), 2D. -/
def mass2 (L : Fin 2 → Dir) (h : Pos 2 K) : NodeVec 2 n K → NodeVec 2 n K :=
  blockMatrix L (diagBlockMult L getElement2 (matElemMass2 h))
/-- Shell matrix with `mass_mult` (cafes/fem/operator.hpp:230-243), 3D. -/
def mass3 (L : Fin 3 → Dir) (h : Pos 3 K) : NodeVec 3 n K → NodeVec 3 n K :=
  blockMatrix L (diagBlockMult L getElement3 (matElemMass3 h))
/-- Shell matrix with `strain_tensor_mult` (cafes/fem/operator.hpp:264-279), 2D. -/
def strain2 (L : Fin 2 → Dir) (h : Pos 2 K) : NodeVec 2 2 K → NodeVec 2 2 K :=
  blockMatrix L (tensorBlockMult L getElement2 (matElemStrain2 h))
/-- Shell matrix with `strain_tensor_mult` (cafes/fem/operator.hpp:264-279), 3D. -/
def strain3 (L : Fin 3 → Dir) (h : Pos 3 K) : NodeVec 3 3 K → NodeVec 3 3 K :=
  blockMatrix L (tensorBlockMult L getElement3 (matElemStrain3 h))
/-- `diag_laplacian_mult` (cafes/fem/operator.hpp:212-228) through `diag_diag_block_matrix`, 2D. -/
def diagLaplacian2 (L : Fin 2 → Dir) (h : Pos 2 K) : NodeVec 2 n K :=
  diagMatrix L (diagDiagBlockMult L getElement2 (matElemLaplacian2 h))
/-- `diag_laplacian_mult` through `diag_diag_block_matrix`, 3D. -/
def diagLaplacian3 (L : Fin 3 → Dir) (h : Pos 3 K) : NodeVec 3 n K :=
  diagMatrix L (diagDiagBlockMult L getElement3 (matElemLaplacian3 h))
/-- `diag_mass_mult` (cafes/fem/operator.hpp:247-262) through `diag_diag_block_matrix`, 2D. -/
def diagMass2 (L : Fin 2 → Dir) (h : Pos 2 K) : NodeVec 2 n K :=
  diagMatrix L (diagDiagBlockMult L getElement2 (matElemMass2 h))
/-- `diag_mass_mult` through `diag_diag_block_matrix`, 3D. -/
def diagMass3 (L : Fin 3 → Dir) (h : Pos 3 K) : NodeVec 3 n K :=
  diagMatrix L (diagDiagBlockMult L getElement3 (matElemMass3 h))

/-- The pressure layout of `createMesh` (cafes/fem/mesh.hpp:320-352): `N` points per direction. -/
def presLayout {d : ℕ} (N : Fin d → ℤ) (per : Fin d → Bool) (lx : Fin d → List ℤ) : Fin d → Dir :=
  fun i => presDir (N i) (per i) (lx i)
/-- The velocity layout of `createMesh` (cafes/fem/mesh.hpp:320-352). -/
def velLayout {d : ℕ} (N : Fin d → ℤ) (per : Fin d → Bool) (lx : Fin d → List ℤ) : Fin d → Dir :=
  fun i => velDir (N i) (per i) (lx i)

/-- `std::for_each(hp.begin(), hp.end(), [](auto x) { ... })` (cafes/fem/matrixFree.hpp:280): the lambda takes its
argument by value, so its assignments change a copy and the array keeps its content. -/
def forEachByValue {ι : Type*} (_f : K → K) (hp : ι → K) : ι → K := fun i => hp i

/-- `apply_mass_matrix` (cafes/fem/matrixFree.hpp:271-294) on the composite mesh with velocity layout `Lv` and
pressure layout `Lp`, 2D: `diag_block_matrix` for several meshes (cafes/fem/matrixFree.hpp:82-122) with
`mass_mult` and the steps `{h, hp}`. -/
def applyMass2 (Lv Lp : Fin 2 → Dir) (h : Pos 2 K) (x : NodeVec 2 n K × NodeVec 2 1 K) :
    NodeVec 2 n K × NodeVec 2 1 K :=
  let hp := forEachByValue (fun t => t * 2) h
  (mass2 Lv h x.1, mass2 Lp hp x.2)
/-- `apply_mass_matrix` (cafes/fem/matrixFree.hpp:271-294), 3D. -/
def applyMass3 (Lv Lp : Fin 3 → Dir) (h : Pos 3 K) (x : NodeVec 3 n K × NodeVec 3 1 K) :
    NodeVec 3 n K × NodeVec 3 1 K :=
  let hp := forEachByValue (fun t => t * 2) h
  (mass3 Lv h x.1, mass3 Lp hp x.2)

/-- `B_and_BT_mult` on the mesh of `createMesh`, 2D; `h` is the velocity step. -/
def bAndBT2 (N : Fin 2 → ℤ) (per : Fin 2 → Bool) (lx : Fin 2 → List ℤ) (h : Pos 2 K) :
    NodeVec 2 2 K → NodeVec 2 1 K → NodeVec 2 2 K × NodeVec 2 1 K :=
  offDiagMatrix (velLayout N per lx) (presLayout N per lx) getElement2 getElement4Q1_2
    (matElemPressure2 h)
/-- `B_and_BT_mult` on the mesh of `createMesh`, 3D. -/
def bAndBT3 (N : Fin 3 → ℤ) (per : Fin 3 → Bool) (lx : Fin 3 → List ℤ) (h : Pos 3 K) :
    NodeVec 3 3 K → NodeVec 3 1 K → NodeVec 3 3 K × NodeVec 3 1 K :=
  offDiagMatrix (velLayout N per lx) (presLayout N per lx) getElement3 getElement4Q1_3
    (matElemPressure3 h)
/-- `stokes_matrix` with `strain_tensor_mult` on the mesh of `createMesh`, 2D. -/
def stokesStrain2 (N : Fin 2 → ℤ) (per : Fin 2 → Bool) (lx : Fin 2 → List ℤ) (h : Pos 2 K) :
    NodeVec 2 2 K → NodeVec 2 1 K → NodeVec 2 2 K × NodeVec 2 1 K :=
  stokesMatrix (velLayout N per lx) (presLayout N per lx)
    (tensorBlockMult (velLayout N per lx) getElement2 (matElemStrain2 h))
    getElement2 getElement4Q1_2 (matElemPressure2 h)
/-- `stokes_matrix` with `strain_tensor_mult` on the mesh of `createMesh`, 3D. -/
def stokesStrain3 (N : Fin 3 → ℤ) (per : Fin 3 → Bool) (lx : Fin 3 → List ℤ) (h : Pos 3 K) :
    NodeVec 3 3 K → NodeVec 3 1 K → NodeVec 3 3 K × NodeVec 3 1 K :=
  stokesMatrix (velLayout N per lx) (presLayout N per lx)
    (tensorBlockMult (velLayout N per lx) getElement3 (matElemStrain3 h))
    getElement3 getElement4Q1_3 (matElemPressure3 h)
/-- `stokes_matrix` with `laplacian_mult` on the mesh of `createMesh`, 2D. -/
def stokesLap2 (N : Fin 2 → ℤ) (per : Fin 2 → Bool) (lx : Fin 2 → List ℤ) (h : Pos 2 K) :
    NodeVec 2 2 K → NodeVec 2 1 K → NodeVec 2 2 K × NodeVec 2 1 K :=
  stokesMatrix (velLayout N per lx) (presLayout N per lx)
    (diagBlockMult (velLayout N per lx) getElement2 (matElemLaplacian2 h))
    getElement2 getElement4Q1_2 (matElemPressure2 h)
/-- `stokes_matrix` with `laplacian_mult` on the mesh of `createMesh`, 3D. -/
def stokesLap3 (N : Fin 3 → ℤ) (per : Fin 3 → Bool) (lx : Fin 3 → List ℤ) (h : Pos 3 K) :
    NodeVec 3 3 K → NodeVec 3 1 K → NodeVec 3 3 K × NodeVec 3 1 K :=
  stokesMatrix (velLayout N per lx) (presLayout N per lx)
    (diagBlockMult (velLayout N per lx) getElement3 (matElemLaplacian3 h))
    getElement3 getElement4Q1_3 (matElemPressure3 h)

end
end Cafes
