/-
Model of the element matrix functions of cafes/fem/matElem.hpp:334-553.
`h` is the mesh step; entries of the tables are cast from `ℚ` to the field `K`.
-/
import Verif.Model.Tables
import Verif.Model.Box
import Mathlib.Data.Rat.Cast.Defs
import Mathlib.Algebra.Field.Defs
import Mathlib.Algebra.Field.Rat

namespace Cafes
variable {K : Type*} [Field K]

/-- `getMatElemLaplacian` in 2D (cafes/fem/matElem.hpp:334-345). -/
def matElemLaplacian2 (h : Pos 2 K) (i j : Fin 4) : K :=
  let hxy := h 0 / h 1
  let hyx := h 1 / h 0
  hyx * (matElem2d_dxudxu i j : K) + hxy * (matElem2d_dyudyu i j : K)

/-- `getMatElemStrainTensor` in 2D (cafes/fem/matElem.hpp:360-382). The second loop nest
(377-379) stores `MatElem[j][i][1][0] = MatElem[i][j][0][1]`. -/
def matElemStrain2 (h : Pos 2 K) (i j : Fin 4) (a b : Fin 2) : K :=
  let hxy := h 0 / h 1
  let hyx := h 1 / h 0
  match a, b with
  | 0, 0 => 2 * hyx * (matElem2d_dxudxu i j : K) + hxy * (matElem2d_dyudyu i j : K)
  | 0, 1 => (matElem2d_dxudyu i j : K)
  | 1, 1 => hyx * (matElem2d_dxudxu i j : K) + 2 * hxy * (matElem2d_dyudyu i j : K)
  | 1, 0 => (matElem2d_dxudyu j i : K)

/-- `getMatElemPressure` in 2D (cafes/fem/matElem.hpp:405-420). -/
def matElemPressure2 (h : Pos 2 K) (i : Fin 4) (j : Fin 9) (a : Fin 2) : K :=
  match a with
  | 0 => -h 1 * (matElem2d_pdxu i j : K)
  | 1 => -h 0 * (matElem2d_pdyu i j : K)

/-- `getMatElemMass` in 2D (cafes/fem/matElem.hpp:456-465). -/
def matElemMass2 (h : Pos 2 K) (i j : Fin 4) : K := h 0 * h 1 * (matElemMass2d i j : K)

/-- A `std::array<double, N>` left uninitialised and then filled by the listed assignments
`a[n] = v`, in order: reading slot `n` gives the last value written, or `none` (indeterminate
value) if it was never written. -/
def flatStore {V : Type*} (writes : List (ℕ × V)) (n : ℕ) : Option V :=
  (writes.reverse.find? (fun w => w.1 == n)).map (·.2)

/-- The nest `for i < a, for j < b` of assignments. -/
def loop2 {V : Type*} (a b : ℕ) (body : Fin a → Fin b → List (ℕ × V)) : List (ℕ × V) :=
  (List.finRange a).flatMap fun i => (List.finRange b).flatMap fun j => body i j

/-- `getMatElemLaplacianA` (cafes/fem/matElem.hpp:347-358). -/
def matElemLaplacianA (h : Pos 2 K) : ℕ → Option K :=
  let hxy := h 0 / h 1
  let hyx := h 1 / h 0
  flatStore (loop2 4 4 fun i j =>
    [(i.1 + j.1 * 4, hyx * (matElem2d_dxudxu i j : K) + hxy * (matElem2d_dyudyu i j : K))])

/-- `getMatElemStrainTensorA` (cafes/fem/matElem.hpp:384-403). -/
def matElemStrainA (h : Pos 2 K) : ℕ → Option K :=
  let hxy := h 0 / h 1
  let hyx := h 1 / h 0
  flatStore (loop2 4 4 fun i j =>
    [(i.1 + j.1 * 8, 2 * hyx * (matElem2d_dxudxu i j : K) + hxy * (matElem2d_dyudyu i j : K)),
     (i.1 + 4 + j.1 * 8, (matElem2d_dxudyu i j : K)),
     (i.1 + (j.1 + 4) * 8, (matElem2d_dxudyu i j : K)),
     (i.1 + 4 + (j.1 + 4) * 8,
        hyx * (matElem2d_dxudxu i j : K) + 2 * hxy * (matElem2d_dyudyu i j : K))])

/-- `getMatElemPressureA` (cafes/fem/matElem.hpp:422-437). -/
def matElemPressureA (h : Pos 2 K) : ℕ → Option K :=
  flatStore (loop2 4 9 fun i j =>
    [(18 * i.1 + j.1, -h 1 * (matElem2d_pdxu i j : K)),
     (18 * i.1 + j.1 + 9, -h 0 * (matElem2d_pdyu i j : K))])

/-- `getMatElemPressureAT` (cafes/fem/matElem.hpp:439-454). -/
def matElemPressureAT (h : Pos 2 K) : ℕ → Option K :=
  flatStore (loop2 9 4 fun j i =>
    [(i.1 + 4 * j.1, h 1 * (matElem2d_pdxu i j : K)),
     (i.1 + 4 * (j.1 + 9), h 0 * (matElem2d_pdyu i j : K))])

/-- `getMatElemMassA` (cafes/fem/matElem.hpp:467-476). -/
def matElemMassA (h : Pos 2 K) : ℕ → Option K :=
  flatStore (loop2 4 4 fun i j => [(i.1 + 4 * j.1, h 0 * h 1 * (matElemMass2d i j : K))])

/-- `getMatElemLaplacian` in 3D (cafes/fem/matElem.hpp:478-490). -/
def matElemLaplacian3 (h : Pos 3 K) (i j : Fin 8) : K :=
  let hxy := h 0 * h 1
  let hxz := h 0 * h 2
  let hyz := h 1 * h 2
  hyz / h 0 * (matElem3d_dxudxu i j : K) + hxz / h 1 * (matElem3d_dyudyu i j : K)
    + hxy / h 2 * (matElem3d_dzudzu i j : K)

/-- `getMatElemStrainTensor` in 3D (cafes/fem/matElem.hpp:492-525); the second loop nest stores the
lower blocks as transposes (`MatElem[j][i][1][0] = MatElem[i][j][0][1]`, ...). -/
def matElemStrain3 (h : Pos 3 K) (i j : Fin 8) (a b : Fin 3) : K :=
  let hxy := h 0 * h 1
  let hxz := h 0 * h 2
  let hyz := h 1 * h 2
  match a, b with
  | 0, 0 => 2 * hyz / h 0 * (matElem3d_dxudxu i j : K) + hxz / h 1 * (matElem3d_dyudyu i j : K)
      + hxy / h 2 * (matElem3d_dzudzu i j : K)
  | 1, 1 => hyz / h 0 * (matElem3d_dxudxu i j : K) + 2 * hxz / h 1 * (matElem3d_dyudyu i j : K)
      + hxy / h 2 * (matElem3d_dzudzu i j : K)
  | 2, 2 => hyz / h 0 * (matElem3d_dxudxu i j : K) + hxz / h 1 * (matElem3d_dyudyu i j : K)
      + 2 * hxy / h 2 * (matElem3d_dzudzu i j : K)
  | 0, 1 => h 2 * (matElem3d_dxudyu i j : K)
  | 0, 2 => h 1 * (matElem3d_dxudzu i j : K)
  | 1, 2 => h 0 * (matElem3d_dyudzu i j : K)
  | 1, 0 => h 2 * (matElem3d_dxudyu j i : K)
  | 2, 0 => h 1 * (matElem3d_dxudzu j i : K)
  | 2, 1 => h 0 * (matElem3d_dyudzu j i : K)

/-- `getMatElemPressure` in 3D (cafes/fem/matElem.hpp:527-542). -/
def matElemPressure3 (h : Pos 3 K) (i : Fin 8) (j : Fin 27) (a : Fin 3) : K :=
  match a with
  | 0 => -h 1 * h 2 * (matElem3d_pdxu i j : K)
  | 1 => -h 0 * h 2 * (matElem3d_pdyu i j : K)
  | 2 => -h 0 * h 1 * (matElem3d_pdzu i j : K)

/-- `getMatElemMass` in 3D (cafes/fem/matElem.hpp:544-553). -/
def matElemMass3 (h : Pos 3 K) (i j : Fin 8) : K := h 0 * h 1 * h 2 * (matElemMass3d i j : K)

end Cafes
