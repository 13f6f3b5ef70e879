/-
Element tables of cafes/fem/matElem.hpp:42-332, transcribed by tools/gen_tables.py.
Every `double` literal quotient is kept as the exact rational it denotes.
-/
import Mathlib.Data.Rat.Defs
import Mathlib.Data.Fin.VecNotation

namespace Cafes

/-- `matElem2d_dxudxu` (cafes/fem/matElem.hpp:45-48). -/
def matElem2d_dxudxu : Fin 4 → Fin 4 → ℚ :=
  ![![1/3, -1/3, 1/6, -1/6],
    ![-1/3, 1/3, -1/6, 1/6],
    ![1/6, -1/6, 1/3, -1/3],
    ![-1/6, 1/6, -1/3, 1/3]]

/-- `matElem2d_dyudyu` (cafes/fem/matElem.hpp:51-54). -/
def matElem2d_dyudyu : Fin 4 → Fin 4 → ℚ :=
  ![![1/3, 1/6, -1/3, -1/6],
    ![1/6, 1/3, -1/6, -1/3],
    ![-1/3, -1/6, 1/3, 1/6],
    ![-1/6, -1/3, 1/6, 1/3]]

/-- `matElem2d_dxudyu` (cafes/fem/matElem.hpp:57-60). -/
def matElem2d_dxudyu : Fin 4 → Fin 4 → ℚ :=
  ![![1/4, -1/4, 1/4, -1/4],
    ![1/4, -1/4, 1/4, -1/4],
    ![-1/4, 1/4, -1/4, 1/4],
    ![-1/4, 1/4, -1/4, 1/4]]

/-- `matElemMass2d` (cafes/fem/matElem.hpp:63-66). -/
def matElemMass2d : Fin 4 → Fin 4 → ℚ :=
  ![![1/9, 1/18, 1/18, 1/36],
    ![1/18, 1/9, 1/36, 1/18],
    ![1/18, 1/36, 1/9, 1/18],
    ![1/36, 1/18, 1/18, 1/9]]

/-- `matElem2d_pdxu` (cafes/fem/matElem.hpp:68-76). -/
def matElem2d_pdxu : Fin 4 → Fin 9 → ℚ :=
  ![![15/48, -10/48, -5/48, 18/48, -12/48, -6/48, 3/48, -2/48, -1/48],
    ![5/48, 10/48, -15/48, 6/48, 12/48, -18/48, 1/48, 2/48, -3/48],
    ![3/48, -2/48, -1/48, 18/48, -12/48, -6/48, 15/48, -10/48, -5/48],
    ![1/48, 2/48, -3/48, 6/48, 12/48, -18/48, 5/48, 10/48, -15/48]]

/-- `matElem2d_pdyu` (cafes/fem/matElem.hpp:78-86). -/
def matElem2d_pdyu : Fin 4 → Fin 9 → ℚ :=
  ![![15/48, 18/48, 3/48, -10/48, -12/48, -2/48, -5/48, -6/48, -1/48],
    ![3/48, 18/48, 15/48, -2/48, -12/48, -10/48, -1/48, -6/48, -5/48],
    ![5/48, 6/48, 1/48, 10/48, 12/48, 2/48, -15/48, -18/48, -3/48],
    ![1/48, 6/48, 5/48, 2/48, 12/48, 10/48, -3/48, -18/48, -15/48]]

/-- `matElem3d_dxudxu` (cafes/fem/matElem.hpp:89-104). -/
def matElem3d_dxudxu : Fin 8 → Fin 8 → ℚ :=
  ![![1/9, -1/9, 1/18, -1/18, 1/18, -1/18, 1/36, -1/36],
    ![-1/9, 1/9, -1/18, 1/18, -1/18, 1/18, -1/36, 1/36],
    ![1/18, -1/18, 1/9, -1/9, 1/36, -1/36, 1/18, -1/18],
    ![-1/18, 1/18, -1/9, 1/9, -1/36, 1/36, -1/18, 1/18],
    ![1/18, -1/18, 1/36, -1/36, 1/9, -1/9, 1/18, -1/18],
    ![-1/18, 1/18, -1/36, 1/36, -1/9, 1/9, -1/18, 1/18],
    ![1/36, -1/36, 1/18, -1/18, 1/18, -1/18, 1/9, -1/9],
    ![-1/36, 1/36, -1/18, 1/18, -1/18, 1/18, -1/9, 1/9]]

/-- `matElem3d_dyudyu` (cafes/fem/matElem.hpp:106-121). -/
def matElem3d_dyudyu : Fin 8 → Fin 8 → ℚ :=
  ![![1/9, 1/18, -1/9, -1/18, 1/18, 1/36, -1/18, -1/36],
    ![1/18, 1/9, -1/18, -1/9, 1/36, 1/18, -1/36, -1/18],
    ![-1/9, -1/18, 1/9, 1/18, -1/18, -1/36, 1/18, 1/36],
    ![-1/18, -1/9, 1/18, 1/9, -1/36, -1/18, 1/36, 1/18],
    ![1/18, 1/36, -1/18, -1/36, 1/9, 1/18, -1/9, -1/18],
    ![1/36, 1/18, -1/36, -1/18, 1/18, 1/9, -1/18, -1/9],
    ![-1/18, -1/36, 1/18, 1/36, -1/9, -1/18, 1/9, 1/18],
    ![-1/36, -1/18, 1/36, 1/18, -1/18, -1/9, 1/18, 1/9]]

/-- `matElem3d_dzudzu` (cafes/fem/matElem.hpp:123-138). -/
def matElem3d_dzudzu : Fin 8 → Fin 8 → ℚ :=
  ![![1/9, 1/18, 1/18, 1/36, -1/9, -1/18, -1/18, -1/36],
    ![1/18, 1/9, 1/36, 1/18, -1/18, -1/9, -1/36, -1/18],
    ![1/18, 1/36, 1/9, 1/18, -1/18, -1/36, -1/9, -1/18],
    ![1/36, 1/18, 1/18, 1/9, -1/36, -1/18, -1/18, -1/9],
    ![-1/9, -1/18, -1/18, -1/36, 1/9, 1/18, 1/18, 1/36],
    ![-1/18, -1/9, -1/36, -1/18, 1/18, 1/9, 1/36, 1/18],
    ![-1/18, -1/36, -1/9, -1/18, 1/18, 1/36, 1/9, 1/18],
    ![-1/36, -1/18, -1/18, -1/9, 1/36, 1/18, 1/18, 1/9]]

/-- `matElem3d_dxudyu` (cafes/fem/matElem.hpp:140-155). -/
def matElem3d_dxudyu : Fin 8 → Fin 8 → ℚ :=
  ![![2/24, -2/24, 2/24, -2/24, 1/24, -1/24, 1/24, -1/24],
    ![2/24, -2/24, 2/24, -2/24, 1/24, -1/24, 1/24, -1/24],
    ![-2/24, 2/24, -2/24, 2/24, -1/24, 1/24, -1/24, 1/24],
    ![-2/24, 2/24, -2/24, 2/24, -1/24, 1/24, -1/24, 1/24],
    ![1/24, -1/24, 1/24, -1/24, 2/24, -2/24, 2/24, -2/24],
    ![1/24, -1/24, 1/24, -1/24, 2/24, -2/24, 2/24, -2/24],
    ![-1/24, 1/24, -1/24, 1/24, -2/24, 2/24, -2/24, 2/24],
    ![-1/24, 1/24, -1/24, 1/24, -2/24, 2/24, -2/24, 2/24]]

/-- `matElem3d_dyudzu` (cafes/fem/matElem.hpp:157-172). -/
def matElem3d_dyudzu : Fin 8 → Fin 8 → ℚ :=
  ![![2/24, 1/24, -2/24, -1/24, 2/24, 1/24, -2/24, -1/24],
    ![1/24, 2/24, -1/24, -2/24, 1/24, 2/24, -1/24, -2/24],
    ![2/24, 1/24, -2/24, -1/24, 2/24, 1/24, -2/24, -1/24],
    ![1/24, 2/24, -1/24, -2/24, 1/24, 2/24, -1/24, -2/24],
    ![-2/24, -1/24, 2/24, 1/24, -2/24, -1/24, 2/24, 1/24],
    ![-1/24, -2/24, 1/24, 2/24, -1/24, -2/24, 1/24, 2/24],
    ![-2/24, -1/24, 2/24, 1/24, -2/24, -1/24, 2/24, 1/24],
    ![-1/24, -2/24, 1/24, 2/24, -1/24, -2/24, 1/24, 2/24]]

/-- `matElem3d_dxudzu` (cafes/fem/matElem.hpp:174-189). -/
def matElem3d_dxudzu : Fin 8 → Fin 8 → ℚ :=
  ![![2/24, -2/24, 1/24, -1/24, 2/24, -2/24, 1/24, -1/24],
    ![2/24, -2/24, 1/24, -1/24, 2/24, -2/24, 1/24, -1/24],
    ![1/24, -1/24, 2/24, -2/24, 1/24, -1/24, 2/24, -2/24],
    ![1/24, -1/24, 2/24, -2/24, 1/24, -1/24, 2/24, -2/24],
    ![-2/24, 2/24, -1/24, 1/24, -2/24, 2/24, -1/24, 1/24],
    ![-2/24, 2/24, -1/24, 1/24, -2/24, 2/24, -1/24, 1/24],
    ![-1/24, 1/24, -2/24, 2/24, -1/24, 1/24, -2/24, 2/24],
    ![-1/24, 1/24, -2/24, 2/24, -1/24, 1/24, -2/24, 2/24]]

/-- `matElemMass3d` (cafes/fem/matElem.hpp:191-206). -/
def matElemMass3d : Fin 8 → Fin 8 → ℚ :=
  ![![1/27, 1/54, 1/54, 1/108, 1/54, 1/108, 1/108, 1/216],
    ![1/54, 1/27, 1/108, 1/54, 1/108, 1/54, 1/216, 1/108],
    ![1/54, 1/108, 1/27, 1/54, 1/108, 1/216, 1/54, 1/108],
    ![1/108, 1/54, 1/54, 1/27, 1/216, 1/108, 1/108, 1/54],
    ![1/54, 1/108, 1/108, 1/216, 1/27, 1/54, 1/54, 1/108],
    ![1/108, 1/54, 1/216, 1/108, 1/54, 1/27, 1/108, 1/54],
    ![1/108, 1/216, 1/54, 1/108, 1/54, 1/108, 1/27, 1/54],
    ![1/216, 1/108, 1/108, 1/54, 1/108, 1/54, 1/54, 1/27]]

/-- `matElem3d_pdxu` (cafes/fem/matElem.hpp:208-248). -/
def matElem3d_pdxu : Fin 8 → Fin 27 → ℚ :=
  ![![25/192, -25/288, -25/576, 5/32, -5/48, -5/96, 5/192, -5/288, -5/576, 5/32, -5/48,
      -5/96, 3/16, -1/8, -1/16, 1/32, -1/48, -1/96, 5/192, -5/288, -5/576, 1/32, -1/48,
      -1/96, 1/192, -1/288, -1/576],
    ![25/576, 25/288, -25/192, 5/96, 5/48, -5/32, 5/576, 5/288, -5/192, 5/96, 5/48, -5/32,
      1/16, 1/8, -3/16, 1/96, 1/48, -1/32, 5/576, 5/288, -5/192, 1/96, 1/48, -1/32, 1/576,
      1/288, -1/192],
    ![5/192, -5/288, -5/576, 5/32, -5/48, -5/96, 25/192, -25/288, -25/576, 1/32, -1/48,
      -1/96, 3/16, -1/8, -1/16, 5/32, -5/48, -5/96, 1/192, -1/288, -1/576, 1/32, -1/48,
      -1/96, 5/192, -5/288, -5/576],
    ![5/576, 5/288, -5/192, 5/96, 5/48, -5/32, 25/576, 25/288, -25/192, 1/96, 1/48, -1/32,
      1/16, 1/8, -3/16, 5/96, 5/48, -5/32, 1/576, 1/288, -1/192, 1/96, 1/48, -1/32, 5/576,
      5/288, -5/192],
    ![5/192, -5/288, -5/576, 1/32, -1/48, -1/96, 1/192, -1/288, -1/576, 5/32, -5/48, -5/96,
      3/16, -1/8, -1/16, 1/32, -1/48, -1/96, 25/192, -25/288, -25/576, 5/32, -5/48, -5/96,
      5/192, -5/288, -5/576],
    ![5/576, 5/288, -5/192, 1/96, 1/48, -1/32, 1/576, 1/288, -1/192, 5/96, 5/48, -5/32, 1/16,
      1/8, -3/16, 1/96, 1/48, -1/32, 25/576, 25/288, -25/192, 5/96, 5/48, -5/32, 5/576,
      5/288, -5/192],
    ![1/192, -1/288, -1/576, 1/32, -1/48, -1/96, 5/192, -5/288, -5/576, 1/32, -1/48, -1/96,
      3/16, -1/8, -1/16, 5/32, -5/48, -5/96, 5/192, -5/288, -5/576, 5/32, -5/48, -5/96,
      25/192, -25/288, -25/576],
    ![1/576, 1/288, -1/192, 1/96, 1/48, -1/32, 5/576, 5/288, -5/192, 1/96, 1/48, -1/32, 1/16,
      1/8, -3/16, 5/96, 5/48, -5/32, 5/576, 5/288, -5/192, 5/96, 5/48, -5/32, 25/576, 25/288,
      -25/192]]

/-- `matElem3d_pdyu` (cafes/fem/matElem.hpp:250-290). -/
def matElem3d_pdyu : Fin 8 → Fin 27 → ℚ :=
  ![![25/192, 5/32, 5/192, -25/288, -5/48, -5/288, -25/576, -5/96, -5/576, 5/32, 3/16, 1/32,
      -5/48, -1/8, -1/48, -5/96, -1/16, -1/96, 5/192, 1/32, 1/192, -5/288, -1/48, -1/288,
      -5/576, -1/96, -1/576],
    ![5/192, 5/32, 25/192, -5/288, -5/48, -25/288, -5/576, -5/96, -25/576, 1/32, 3/16, 5/32,
      -1/48, -1/8, -5/48, -1/96, -1/16, -5/96, 1/192, 1/32, 5/192, -1/288, -1/48, -5/288,
      -1/576, -1/96, -5/576],
    ![25/576, 5/96, 5/576, 25/288, 5/48, 5/288, -25/192, -5/32, -5/192, 5/96, 1/16, 1/96,
      5/48, 1/8, 1/48, -5/32, -3/16, -1/32, 5/576, 1/96, 1/576, 5/288, 1/48, 1/288, -5/192,
      -1/32, -1/192],
    ![5/576, 5/96, 25/576, 5/288, 5/48, 25/288, -5/192, -5/32, -25/192, 1/96, 1/16, 5/96,
      1/48, 1/8, 5/48, -1/32, -3/16, -5/32, 1/576, 1/96, 5/576, 1/288, 1/48, 5/288, -1/192,
      -1/32, -5/192],
    ![5/192, 1/32, 1/192, -5/288, -1/48, -1/288, -5/576, -1/96, -1/576, 5/32, 3/16, 1/32,
      -5/48, -1/8, -1/48, -5/96, -1/16, -1/96, 25/192, 5/32, 5/192, -25/288, -5/48, -5/288,
      -25/576, -5/96, -5/576],
    ![1/192, 1/32, 5/192, -1/288, -1/48, -5/288, -1/576, -1/96, -5/576, 1/32, 3/16, 5/32,
      -1/48, -1/8, -5/48, -1/96, -1/16, -5/96, 5/192, 5/32, 25/192, -5/288, -5/48, -25/288,
      -5/576, -5/96, -25/576],
    ![5/576, 1/96, 1/576, 5/288, 1/48, 1/288, -5/192, -1/32, -1/192, 5/96, 1/16, 1/96, 5/48,
      1/8, 1/48, -5/32, -3/16, -1/32, 25/576, 5/96, 5/576, 25/288, 5/48, 5/288, -25/192,
      -5/32, -5/192],
    ![1/576, 1/96, 5/576, 1/288, 1/48, 5/288, -1/192, -1/32, -5/192, 1/96, 1/16, 5/96, 1/48,
      1/8, 5/48, -1/32, -3/16, -5/32, 5/576, 5/96, 25/576, 5/288, 5/48, 25/288, -5/192,
      -5/32, -25/192]]

/-- `matElem3d_pdzu` (cafes/fem/matElem.hpp:292-332). -/
def matElem3d_pdzu : Fin 8 → Fin 27 → ℚ :=
  ![![25/192, 5/32, 5/192, 5/32, 3/16, 1/32, 5/192, 1/32, 1/192, -25/288, -5/48, -5/288,
      -5/48, -1/8, -1/48, -5/288, -1/48, -1/288, -25/576, -5/96, -5/576, -5/96, -1/16, -1/96,
      -5/576, -1/96, -1/576],
    ![5/192, 5/32, 25/192, 1/32, 3/16, 5/32, 1/192, 1/32, 5/192, -5/288, -5/48, -25/288,
      -1/48, -1/8, -5/48, -1/288, -1/48, -5/288, -5/576, -5/96, -25/576, -1/96, -1/16, -5/96,
      -1/576, -1/96, -5/576],
    ![5/192, 1/32, 1/192, 5/32, 3/16, 1/32, 25/192, 5/32, 5/192, -5/288, -1/48, -1/288,
      -5/48, -1/8, -1/48, -25/288, -5/48, -5/288, -5/576, -1/96, -1/576, -5/96, -1/16, -1/96,
      -25/576, -5/96, -5/576],
    ![1/192, 1/32, 5/192, 1/32, 3/16, 5/32, 5/192, 5/32, 25/192, -1/288, -1/48, -5/288,
      -1/48, -1/8, -5/48, -5/288, -5/48, -25/288, -1/576, -1/96, -5/576, -1/96, -1/16, -5/96,
      -5/576, -5/96, -25/576],
    ![25/576, 5/96, 5/576, 5/96, 1/16, 1/96, 5/576, 1/96, 1/576, 25/288, 5/48, 5/288, 5/48,
      1/8, 1/48, 5/288, 1/48, 1/288, -25/192, -5/32, -5/192, -5/32, -3/16, -1/32, -5/192,
      -1/32, -1/192],
    ![5/576, 5/96, 25/576, 1/96, 1/16, 5/96, 1/576, 1/96, 5/576, 5/288, 5/48, 25/288, 1/48,
      1/8, 5/48, 1/288, 1/48, 5/288, -5/192, -5/32, -25/192, -1/32, -3/16, -5/32, -1/192,
      -1/32, -5/192],
    ![5/576, 1/96, 1/576, 5/96, 1/16, 1/96, 25/576, 5/96, 5/576, 5/288, 1/48, 1/288, 5/48,
      1/8, 1/48, 25/288, 5/48, 5/288, -5/192, -1/32, -1/192, -5/32, -3/16, -1/32, -25/192,
      -5/32, -5/192],
    ![1/576, 1/96, 5/576, 1/96, 1/16, 5/96, 5/576, 5/96, 25/576, 1/288, 1/48, 5/288, 1/48,
      1/8, 5/48, 5/288, 5/48, 25/288, -1/192, -1/32, -5/192, -1/32, -3/16, -5/32, -5/192,
      -5/32, -25/192]]

end Cafes
