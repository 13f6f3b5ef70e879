/-
Model of the post-processing: cafes/posttraitement/interpolation.hpp and cafes/io/hdf5.hpp.
-/
import Verif.Model.Operator
import Verif.Model.Quadrature

namespace Cafes
variable {n : ℕ} {K : Type*} [Field K]

/-- The inner loops of the interpolation kernel (cafes/posttraitement/interpolation.hpp:104-128), 2D, on the cell
`pos`: for `j < refine[0]+1`, `i < refine[1]+1`, the fine node `(i + pos[0]*refine[0], j + pos[1]*refine[1])` is set
to zero and receives the sum of the values at the corners of the cell times the P1 weights of the point
`(i*h[0]/refine[0], j*h[1]/refine[1])` of the cell. The position `refcoord - h*pos` is taken in exact arithmetic. -/
def interpKernel (h : Pos 2 K) (refine : Fin 2 → ℕ) (u : NodeVec 2 n K) (pos : Pos 2 ℤ) (y : NodeVec 2 n K) :
    NodeVec 2 n K :=
  (List.range (refine 0 + 1)).foldl (fun y (j : ℕ) =>
    (List.range (refine 1 + 1)).foldl (fun y (i : ℕ) =>
      let refcoord : Pos 2 K := ![(pos 0 : K) * h 0 + (i : K) * h 0 / (refine 0 : K),
        (pos 1 : K) * h 1 + (j : K) * h 1 / (refine 1 : K)]
      let bfunc := p1Integration2 (![refcoord 0 - h 0 * (pos 0 : K), refcoord 1 - h 1 * (pos 1 : K)]) h
      let refpos : Pos 2 ℤ := ![(i : ℤ) + pos 0 * refine 0, (j : ℤ) + pos 1 * refine 1]
      fun q c => if q = refpos then
        (List.finRange 4).foldl (fun s k => s + u (getElement2 pos k) c * bfunc k) 0 else y q c) y) y

/-- `linear_interpolation` for the velocity (cafes/posttraitement/interpolation.hpp:70-145), 2D, on one process: ghost
update of the solution, then the kernel on the cells of the mesh. `y0` is the content of the local array of the fine
mesh before the call. Not modelled: several processes (the ownership of the fine mesh is chosen by PETSc). -/
def linearInterpolation (L : Fin 2 → Dir) (h : Pos 2 K) (refine : Fin 2 → ℕ) (u y0 : NodeVec 2 n K) : NodeVec 2 n K :=
  iterate (getDMBounds L (fun _ => 0) true) (interpKernel h refine (globalToLocal L u)) y0

/-- The slots of the local array of the fine pressure (one value per node, first direction fastest, `gxm` values per
line starting at the ghost corner `(gxs, gys)`; `petsc_vec::at`, cafes/petsc/vec.hpp:120-135) that the same kernel
writes: `uref[d]` for `d < Dimensions = 2` (cafes/posttraitement/interpolation.hpp:112-127). -/
def pressureSlots (L : Fin 2 → Dir) (refine : Fin 2 → ℕ) (gxs gys gxm : ℤ) : List ℤ :=
  (getDMBounds L (fun _ => 0) true).visited.flatMap fun pos =>
    (List.range (refine 0 + 1)).flatMap fun (j : ℕ) =>
      (List.range (refine 1 + 1)).flatMap fun (i : ℕ) =>
        (List.range 2).map fun (d : ℕ) => localIndex2 1 gxs gys gxm ((i : ℤ) + pos 0 * refine 0) ((j : ℤ) + pos 1 * refine 1) + (d : ℤ)

/-- What `create_xdmf` writes about one grid: the sizes of the topology item, the step of the geometry item, the sizes
of the data item (without the number of components). -/
structure XdmfGrid (K : Type*) where
  /-- `NumberOfElements`, in the written order. -/
  topology : List ℤ
  /-- Second `DataItem` of the geometry. -/
  step : List K
  /-- `Dimensions` of the data item, in the written order. -/
  data : List ℤ

/-- `create_xdmf` (cafes/io/hdf5.hpp:43-107), pressure grid, from the sizes `mx, my` and the step `h` of the velocity
mesh; C++ integer division (the sizes are positive). -/
def xdmfPressure (mx my : ℤ) (h : Pos 2 K) : XdmfGrid K :=
  ⟨[mx / 2 + 1, my / 2 + 1], [2 * h 0, 2 * h 1], [mx / 2, my / 2]⟩

/-- `create_xdmf` (cafes/io/hdf5.hpp:43-107), velocity grid. -/
def xdmfVelocity (mx my : ℤ) (h : Pos 2 K) : XdmfGrid K := ⟨[mx, my], [h 0, h 1], [mx, my, 2]⟩

end Cafes
