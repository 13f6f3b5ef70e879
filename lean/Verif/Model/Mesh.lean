/-
Model of cafes/fem/mesh.hpp and of the index functions of cafes/fem/quadrature.hpp.

A PETSc DMDA is modelled by its contract: in each direction the `M` grid points are split between
the processes of that direction in consecutive blocks, whose sizes are the ownership ranges
(`DMDAGetOwnershipRanges`); the process grid is the Cartesian product of the directions.
-/
import Verif.Model.Box
import Mathlib.Algebra.BigOperators.Group.List.Basic

namespace Cafes

/-- One direction of a DMDA: number of points, periodicity, ownership ranges
(what `DMDACreate2d/3d`, `DMDAGetOwnershipRanges` give back; mesh.hpp:205-236). -/
structure Dir where
  m : ℤ
  periodic : Bool
  l : List ℤ

namespace Dir

/-- `info.xs` of the process of coordinate `r`: sum of the sizes of the preceding blocks. -/
def xs (D : Dir) (r : ℕ) : ℤ := (D.l.take r).sum

/-- `info.xm` of the process of coordinate `r`: size of its block. -/
def xm (D : Dir) (r : ℕ) : ℤ := D.l.getD r 0

/-- `info.gxs` for a stencil of width 1: one ghost layer on each side; on a non periodic
(`DM_BOUNDARY_NONE`) direction the ghost region is clipped to the grid. -/
def gxs (D : Dir) (r : ℕ) : ℤ := if D.periodic then D.xs r - 1 else max (D.xs r - 1) 0

/-- One past the last ghosted index, `info.gxs + info.gxm`. -/
def gxe (D : Dir) (r : ℕ) : ℤ :=
  if D.periodic then D.xs r + D.xm r + 1 else min (D.xs r + D.xm r + 1) D.m

/-- `info.gxm`. -/
def gxm (D : Dir) (r : ℕ) : ℤ := D.gxe r - D.gxs r

/-- Contract of PETSc on one direction: positive block sizes, summing to the number of points. -/
structure WF (D : Dir) : Prop where
  sum_eq : D.l.sum = D.m
  pos : ∀ x ∈ D.l, 0 < x

end Dir

/-- `get_DM_bounds_` (cafes/fem/mesh.hpp:49-89), 2D and 3D alike: the owned box of the process of
grid coordinates `r`, the final points being removed in non periodic directions when asked. -/
def getDMBounds {d : ℕ} (L : Fin d → Dir) (r : Fin d → ℕ) (removeFinal : Bool) : Box d ℤ :=
  { bl := fun i => (L i).xs (r i)
    ur := fun i =>
      let u := (L i).xs (r i) + (L i).xm (r i)
      if removeFinal && (decide (u = (L i).m) && !(L i).periodic) then u - 1 else u }

/-- `set_lxu` (cafes/fem/mesh.hpp:183-191): double every block, remove one point from the last
block when not periodic. -/
def setLxu (period : Bool) (lx : List ℤ) : List ℤ :=
  let lxu := lx.map (2 * ·)
  if period then lxu else lxu.modify (lx.length - 1) (· - 1)

/-- Pressure grid size of `createMesh` (cafes/fem/mesh.hpp:328-346). -/
def meshPres (n : ℤ) (period : Bool) : ℤ := if period then n - 1 else n

/-- Velocity grid size of `createMesh` (cafes/fem/mesh.hpp:328-346): `2n-1`, minus one if
periodic. -/
def meshVel (n : ℤ) (period : Bool) : ℤ := if period then 2 * n - 1 - 1 else 2 * n - 1

/-- The pressure direction created by `createMesh`/`createDMDA` (mesh.hpp:205-222, 275-291) for the
ownership ranges `lx` decided by PETSc. -/
def presDir (n : ℤ) (period : Bool) (lx : List ℤ) : Dir := ⟨meshPres n period, period, lx⟩

/-- The velocity direction created by `createMesh`/`createDMDA` (mesh.hpp:224-236, 293-305). -/
def velDir (n : ℤ) (period : Bool) (lx : List ℤ) : Dir :=
  ⟨meshVel n period, period, setLxu period lx⟩

/-- `info.dof*info.xm*info.ym*info.zm` of one DM (cafes/fem/mesh.hpp:168-176), generic dimension. -/
def dmLocalSize {d : ℕ} (dof : ℤ) (L : Fin d → Dir) (r : Fin d → ℕ) : ℤ :=
  (List.finRange d).foldl (fun a i => a * (L i).xm (r i)) dof

/-- `info.dof*info.mx*info.my*info.mz` of one DM (cafes/fem/mesh.hpp:168-176). -/
def dmTotalSize {d : ℕ} (dof : ℤ) (L : Fin d → Dir) : ℤ :=
  (List.finRange d).foldl (fun a i => a * (L i).m) dof

/-- `get_DM_sizes` on a composite DM (cafes/fem/mesh.hpp:147-181): (local, total), summed over the
sub-DMs given as (dof, directions). -/
def getDMSizes {d : ℕ} (dms : List (ℤ × (Fin d → Dir))) (r : Fin d → ℕ) : ℤ × ℤ :=
  dms.foldl (fun a x => (a.1 + dmLocalSize x.1 x.2 r, a.2 + dmTotalSize x.1 x.2)) (0, 0)

/-- `get_element` in 2D (cafes/fem/quadrature.hpp:104-113). -/
def getElement2 (ix : Pos 2 ℤ) : Fin 4 → Pos 2 ℤ :=
  ![![ix 0, ix 1], ![ix 0 + 1, ix 1], ![ix 0, ix 1 + 1], ![ix 0 + 1, ix 1 + 1]]

/-- `get_element` in 3D (cafes/fem/quadrature.hpp:148-161). -/
def getElement3 (ix : Pos 3 ℤ) : Fin 8 → Pos 3 ℤ :=
  ![![ix 0, ix 1, ix 2], ![ix 0 + 1, ix 1, ix 2],
    ![ix 0, ix 1 + 1, ix 2], ![ix 0 + 1, ix 1 + 1, ix 2],
    ![ix 0, ix 1, ix 2 + 1], ![ix 0 + 1, ix 1, ix 2 + 1],
    ![ix 0, ix 1 + 1, ix 2 + 1], ![ix 0 + 1, ix 1 + 1, ix 2 + 1]]

/-- `get_element_4Q1` in 2D (cafes/fem/quadrature.hpp:163-177). -/
def getElement4Q1_2 (ix : Pos 2 ℤ) : Fin 9 → Pos 2 ℤ :=
  ![![2 * ix 0, 2 * ix 1], ![2 * ix 0 + 1, 2 * ix 1], ![2 * ix 0 + 2, 2 * ix 1],
    ![2 * ix 0, 2 * ix 1 + 1], ![2 * ix 0 + 1, 2 * ix 1 + 1], ![2 * ix 0 + 2, 2 * ix 1 + 1],
    ![2 * ix 0, 2 * ix 1 + 2], ![2 * ix 0 + 1, 2 * ix 1 + 2], ![2 * ix 0 + 2, 2 * ix 1 + 2]]

/-- `get_element_4Q1` in 3D (cafes/fem/quadrature.hpp:208-241). -/
def getElement4Q1_3 (ix : Pos 3 ℤ) : Fin 27 → Pos 3 ℤ :=
  ![![2 * ix 0, 2 * ix 1, 2 * ix 2], ![2 * ix 0 + 1, 2 * ix 1, 2 * ix 2],
    ![2 * ix 0 + 2, 2 * ix 1, 2 * ix 2],
    ![2 * ix 0, 2 * ix 1 + 1, 2 * ix 2], ![2 * ix 0 + 1, 2 * ix 1 + 1, 2 * ix 2],
    ![2 * ix 0 + 2, 2 * ix 1 + 1, 2 * ix 2],
    ![2 * ix 0, 2 * ix 1 + 2, 2 * ix 2], ![2 * ix 0 + 1, 2 * ix 1 + 2, 2 * ix 2],
    ![2 * ix 0 + 2, 2 * ix 1 + 2, 2 * ix 2],
    ![2 * ix 0, 2 * ix 1, 2 * ix 2 + 1], ![2 * ix 0 + 1, 2 * ix 1, 2 * ix 2 + 1],
    ![2 * ix 0 + 2, 2 * ix 1, 2 * ix 2 + 1],
    ![2 * ix 0, 2 * ix 1 + 1, 2 * ix 2 + 1], ![2 * ix 0 + 1, 2 * ix 1 + 1, 2 * ix 2 + 1],
    ![2 * ix 0 + 2, 2 * ix 1 + 1, 2 * ix 2 + 1],
    ![2 * ix 0, 2 * ix 1 + 2, 2 * ix 2 + 1], ![2 * ix 0 + 1, 2 * ix 1 + 2, 2 * ix 2 + 1],
    ![2 * ix 0 + 2, 2 * ix 1 + 2, 2 * ix 2 + 1],
    ![2 * ix 0, 2 * ix 1, 2 * ix 2 + 2], ![2 * ix 0 + 1, 2 * ix 1, 2 * ix 2 + 2],
    ![2 * ix 0 + 2, 2 * ix 1, 2 * ix 2 + 2],
    ![2 * ix 0, 2 * ix 1 + 1, 2 * ix 2 + 2], ![2 * ix 0 + 1, 2 * ix 1 + 1, 2 * ix 2 + 2],
    ![2 * ix 0 + 2, 2 * ix 1 + 1, 2 * ix 2 + 2],
    ![2 * ix 0, 2 * ix 1 + 2, 2 * ix 2 + 2], ![2 * ix 0 + 1, 2 * ix 1 + 2, 2 * ix 2 + 2],
    ![2 * ix 0 + 2, 2 * ix 1 + 2, 2 * ix 2 + 2]]

/-- `DMDALocalIndex2D` (cafes/fem/quadrature.hpp:115-118 and cafes/fem/assembling.hpp:42-45). -/
def localIndex2 (dof gxs gys gxm : ℤ) (i j : ℤ) : ℤ := dof * ((j - gys) * gxm + i - gxs)

/-- `DMDALocalIndex3D` (cafes/fem/assembling.hpp:47-53). -/
def localIndex3 (dof gxs gys gzs gxm gym : ℤ) (i j k : ℤ) : ℤ :=
  dof * (((k - gzs) * gym + j - gys) * gxm + i - gxs)

/-- `get_indices` (cafes/fem/quadrature.hpp:120-130): local ids of component `c` of the 4 nodes. -/
def getIndices2 (dof gxs gys gxm : ℤ) (ix : Pos 2 ℤ) (c : ℤ) : Fin 4 → ℤ :=
  ![c + localIndex2 dof gxs gys gxm (ix 0) (ix 1),
    c + localIndex2 dof gxs gys gxm (ix 0 + 1) (ix 1),
    c + localIndex2 dof gxs gys gxm (ix 0) (ix 1 + 1),
    c + localIndex2 dof gxs gys gxm (ix 0 + 1) (ix 1 + 1)]

/-- `get_indices_tensor` (cafes/fem/quadrature.hpp:132-146): component 0 of the 4 nodes, then
component 1. -/
def getIndicesTensor2 (dof gxs gys gxm : ℤ) (ix : Pos 2 ℤ) : Fin 8 → ℤ :=
  ![localIndex2 dof gxs gys gxm (ix 0) (ix 1),
    localIndex2 dof gxs gys gxm (ix 0 + 1) (ix 1),
    localIndex2 dof gxs gys gxm (ix 0) (ix 1 + 1),
    localIndex2 dof gxs gys gxm (ix 0 + 1) (ix 1 + 1),
    1 + localIndex2 dof gxs gys gxm (ix 0) (ix 1),
    1 + localIndex2 dof gxs gys gxm (ix 0 + 1) (ix 1),
    1 + localIndex2 dof gxs gys gxm (ix 0) (ix 1 + 1),
    1 + localIndex2 dof gxs gys gxm (ix 0 + 1) (ix 1 + 1)]

/-- `get_indices_4Q1` (cafes/fem/quadrature.hpp:179-206): entry `k + 9 c` is the local id of
component `c` of the `k`-th velocity node. -/
def getIndices4Q1 (dof gxs gys gxm : ℤ) (ix : Pos 2 ℤ) (c : Fin 2) (k : Fin 9) : ℤ :=
  c.1 + localIndex2 dof gxs gys gxm (getElement4Q1_2 ix k 0) (getElement4Q1_2 ix k 1)

end Cafes
