/-
Model of the assembled matrices: cafes/fem/assembling.hpp:460-604 (2D, the only dimension for which
`get_indices` exists), of the PETSc calls `MatSetValuesLocal` / `MatZeroRowsLocal`, and of
`set_dirichlet_on_mat_impl` (cafes/fem/bc.hpp:180-306).

A matrix on the composite (velocity, pressure) space is a function of two global dofs. Local ids are
turned into global dofs by the local-to-global map of the composite DM (contract of PETSc: velocity
ids first, then pressure ids; inside a DMDA, component fastest, then `i`, then `j`, in the ghosted
window). The state of the assembly is `Option`: `none` means that the program used a local id
outside the map or read an array slot that was never written.
-/
import Verif.Model.Operator

namespace Cafes

/-- Global dof of the composite vector: velocity node and component, or pressure node. -/
abbrev Dof := (Pos 2 ℤ × Fin 2) ⊕ Pos 2 ℤ

/-- A matrix on the composite space. -/
abbrev GMat (K : Type*) := Dof → Dof → K

/-- Number of local (ghosted) velocity ids of process `r`: `infov.dof*infov.gxm*infov.gym*infov.gzm`
(`dec`, cafes/fem/assembling.hpp:509, with `dof = 2`, `gzm = 1`). -/
def decOf (Lv : Fin 2 → Dir) (r : Fin 2 → ℕ) : ℤ := 2 * (Lv 0).gxm (r 0) * (Lv 1).gxm (r 1)

/-- The grid node behind the local node number `q` of a DMDA on process `r`
(contract of `DMGetLocalToGlobalMapping`). -/
def nodeOf (L : Fin 2 → Dir) (r : Fin 2 → ℕ) (q : ℤ) : Pos 2 ℤ :=
  wrap L ![(L 0).gxs (r 0) + q % (L 0).gxm (r 0), (L 1).gxs (r 1) + q / (L 0).gxm (r 0)]

/-- Local-to-global map of the composite DM on process `r` (contract of
`DMGetLocalToGlobalMapping(pack, ...)`, cafes/fem/assembling.hpp:112, 455); `none` outside. -/
def ltog (Lv Lp : Fin 2 → Dir) (r : Fin 2 → ℕ) (id : ℤ) : Option Dof :=
  let nv := decOf Lv r
  let np := (Lp 0).gxm (r 0) * (Lp 1).gxm (r 1)
  if 0 ≤ id ∧ id < nv then
    some (.inl (nodeOf Lv r (id / 2), if id % 2 = 0 then 0 else 1))
  else if nv ≤ id ∧ id < nv + np then some (.inr (nodeOf Lp r (id - nv)))
  else none

variable {K : Type*}

/-- One entry of `MatSetValuesLocal(..., ADD_VALUES)`. -/
def addEntry [Add K] : Option Dof → Option Dof → Option K → Option (GMat K) → Option (GMat K)
  | some p, some q, some v, some A =>
    some fun p' q' => if p' = p ∧ q' = q then A p' q' + v else A p' q'
  | _, _, _, _ => none

/-- `MatSetValuesLocal(A, a, rows, b, cols, vals, ADD_VALUES)`: `vals` is row major. -/
def matSetValuesLocal [Add K] {a b : ℕ} (map : ℤ → Option Dof) (rows : Fin a → ℤ) (cols : Fin b → ℤ)
    (vals : ℕ → Option K) (A : Option (GMat K)) : Option (GMat K) :=
  (List.finRange a).foldl (fun A i =>
    (List.finRange b).foldl (fun A j =>
      addEntry (map (rows i)) (map (cols j)) (vals (i.1 * b + j.1)) A) A) A

/-- `kernel_diag_block_A` (cafes/fem/assembling.hpp:462-473); `L` is the DMDA whose `info` is given,
`dof` is `info.dof`. -/
def kernelDiagBlockA [Add K] (map : ℤ → Option Dof) (L : Fin 2 → Dir) (r : Fin 2 → ℕ) (dof : ℕ)
    (matelem : ℕ → Option K) (dec : ℤ) (pos : Pos 2 ℤ) (A : Option (GMat K)) : Option (GMat K) :=
  (List.finRange dof).foldl (fun A c =>
    let ids := getIndices2 dof ((L 0).gxs (r 0)) ((L 1).gxs (r 1)) ((L 0).gxm (r 0)) pos (c.1 + dec)
    matSetValuesLocal map ids ids matelem A) A

/-- `kernel_tensor_block_A` (cafes/fem/assembling.hpp:518-527). -/
def kernelTensorBlockA [Add K] (map : ℤ → Option Dof) (L : Fin 2 → Dir) (r : Fin 2 → ℕ)
    (matelem : ℕ → Option K) (pos : Pos 2 ℤ) (A : Option (GMat K)) : Option (GMat K) :=
  let ids := getIndicesTensor2 2 ((L 0).gxs (r 0)) ((L 1).gxs (r 1)) ((L 0).gxm (r 0)) pos
  matSetValuesLocal map ids ids matelem A

/-- `kernel_off_diag_block_A` (cafes/fem/assembling.hpp:565-579); the 18 velocity ids are listed as in
`get_indices_4Q1`: entry `k + 9 c`. -/
def kernelOffDiagBlockA [Add K] (map : ℤ → Option Dof) (Lv Lp : Fin 2 → Dir) (r : Fin 2 → ℕ)
    (dec : ℤ) (matB matBT : ℕ → Option K) (pos : Pos 2 ℤ) (A : Option (GMat K)) : Option (GMat K) :=
  let idp := getIndices2 1 ((Lp 0).gxs (r 0)) ((Lp 1).gxs (r 1)) ((Lp 0).gxm (r 0)) pos dec
  let idv : Fin 18 → ℤ := fun m =>
    getIndices4Q1 2 ((Lv 0).gxs (r 0)) ((Lv 1).gxs (r 1)) ((Lv 0).gxm (r 0)) pos
      ⟨m.1 / 9, by omega⟩ ⟨m.1 % 9, by omega⟩
  let A := matSetValuesLocal map idp idv matB A
  matSetValuesLocal map idv idp matBT A

/-- A collective assembly: every process of `rs` runs its kernel on the elements it owns; the
`ADD_VALUES` contributions are summed by `MatAssemblyBegin/End`. -/
def assembleBy (LE : Fin 2 → Dir) (rs : List (Fin 2 → ℕ))
    (kernel : (Fin 2 → ℕ) → Pos 2 ℤ → Option (GMat K) → Option (GMat K)) (A : Option (GMat K)) :
    Option (GMat K) :=
  rs.foldl (fun A r => iterate (getDMBounds LE r true) (kernel r) A) A

section
variable [Field K] (Lv Lp : Fin 2 → Dir) (rs : List (Fin 2 → ℕ)) (h : Pos 2 K)

/-- `laplacian_assembling` (cafes/fem/assembling.hpp:475-491). -/
def laplacianAssembling : Option (GMat K) → Option (GMat K) :=
  assembleBy Lv rs fun r => kernelDiagBlockA (ltog Lv Lp r) Lv r 2 (matElemLaplacianA h) 0

/-- `mass_assembling` (cafes/fem/assembling.hpp:493-516). -/
def massAssembling : Option (GMat K) → Option (GMat K) :=
  assembleBy Lp rs fun r => kernelDiagBlockA (ltog Lv Lp r) Lp r 1 (matElemMassA h) (decOf Lv r)

/-- `strain_tensor_assembling` (cafes/fem/assembling.hpp:529-542). -/
def strainAssembling : Option (GMat K) → Option (GMat K) :=
  assembleBy Lv rs fun r => kernelTensorBlockA (ltog Lv Lp r) Lv r (matElemStrainA h)

/-- `diagonal_assembling` (cafes/fem/assembling.hpp:544-563): the array `matelem` is filled with `0`,
the argument `value` is not used. -/
def diagonalAssembling (_value : K) : Option (GMat K) → Option (GMat K) :=
  assembleBy Lp rs fun r => kernelDiagBlockA (ltog Lv Lp r) Lp r 1 (fun _ => some 0) (decOf Lv r)

/-- `B_BT_assembling` (cafes/fem/assembling.hpp:581-603). -/
def bBTAssembling : Option (GMat K) → Option (GMat K) :=
  assembleBy Lp rs fun r =>
    kernelOffDiagBlockA (ltog Lv Lp r) Lv Lp r (decOf Lv r) (matElemPressureA h) (matElemPressureAT h)

end

/-- `MatZeroRowsLocal(A, n, ids, 1.0, NULL, NULL)`: the listed rows become rows of the identity;
`none` when an id is outside the local map. -/
def matZeroRowsLocal [Zero K] [One K] (map : ℤ → Option Dof) (ids : List ℤ) (A : Option (GMat K)) :
    Option (GMat K) :=
  ids.foldl (fun A id =>
    match map id, A with
    | some p, some A => some fun p' q' => if p' = p then (if q' = p then 1 else 0) else A p' q'
    | _, _ => none) A

/-- `set_dirichlet_on_mat_impl` on process `r` (cafes/fem/bc.hpp:182-288); `size` is the number of
processes. The conditions themselves are not read by the code. Each of the four borders lists
`2*ny` or `2*nx` local ids, used only if `nbcs` is not zero. -/
def setDirichletOnMatImpl [Zero K] [One K] (Lv Lp : Fin 2 → Dir) (size : ℕ) (r : Fin 2 → ℕ)
    (A : Option (GMat K)) : Option (GMat K) :=
  let map := ltog Lv Lp r
  let nx := if size = 1 then (Lv 0).m else (Lv 0).gxm (r 0)
  let ny := if size = 1 then (Lv 1).m else (Lv 1).gxm (r 1)
  let col := fun i => (forRange 0 ny).flatMap fun j => [2 * (i + j * nx), 2 * (i + j * nx) + 1]
  let row := fun j => (forRange 0 nx).flatMap fun i => [2 * (i + j * nx), 2 * (i + j * nx) + 1]
  let low := fun i : Fin 2 => !(Lv i).periodic && decide ((Lv i).xs (r i) = 0)
  let up := fun i : Fin 2 =>
    !(Lv i).periodic && decide ((Lv i).xs (r i) + (Lv i).xm (r i) = (Lv i).m)
  let A := matZeroRowsLocal map (if low 0 then col 0 else []) A
  let A := matZeroRowsLocal map
    (if up 0 then col (if size = 1 then (Lv 0).m - 1 else (Lv 0).gxm (r 0) - 1) else []) A
  let A := matZeroRowsLocal map (if low 1 then row 0 else []) A
  matZeroRowsLocal map
    (if up 1 then row (if size = 1 then (Lv 1).m - 1 else (Lv 1).gxm (r 1) - 1) else []) A

/-- `SetDirichletOnMat` (cafes/fem/bc.hpp:290-303) run by all the processes. -/
def setDirichletOnMat [Zero K] [One K] (Lv Lp : Fin 2 → Dir) (rs : List (Fin 2 → ℕ))
    (A : Option (GMat K)) : Option (GMat K) :=
  rs.foldl (fun A r => setDirichletOnMatImpl Lv Lp rs.length r A) A

/-- The matrix `A` of `stokes` with `-assembling`, Laplacian form, before the boundary conditions
(cafes/problem/stokes.hpp:246-273). -/
def stokesAssembled [Field K] (Lv Lp : Fin 2 → Dir) (rs : List (Fin 2 → ℕ)) (h : Pos 2 K) :
    Option (GMat K) :=
  diagonalAssembling Lv Lp rs 0 (bBTAssembling Lv Lp rs h
    (laplacianAssembling Lv Lp rs h (some fun _ _ => 0)))

/-- The same with the strain tensor form (`-strain_tensor`, cafes/problem/stokes.hpp:255-259). -/
def stokesAssembledStrain [Field K] (Lv Lp : Fin 2 → Dir) (rs : List (Fin 2 → ℕ)) (h : Pos 2 K) :
    Option (GMat K) :=
  diagonalAssembling Lv Lp rs 0 (bBTAssembling Lv Lp rs h
    (strainAssembling Lv Lp rs h (some fun _ _ => 0)))

end Cafes
