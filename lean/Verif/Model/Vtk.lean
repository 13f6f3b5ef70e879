/-
Model of cafes/io/vtk.hpp: the content of the files written by `save_VTK` and `saveParticles`.
-/
import Verif.Model.Operator
import Verif.Model.Iterate
import Verif.Model.Geometry

namespace Cafes.Vtk
variable {d n : ℕ} {K : Type*} [Field K]

/-- The extent of a structured grid, `x0 x1 y0 y1 z0 z1`, bounds included (`SetExtent`, `Extent`, `WholeExtent`). -/
structure Extent where
  lo : Pos 3 ℤ
  hi : Pos 3 ℤ
deriving DecidableEq

/-- The content of one `.vts` file: the extent, the points and the values in the order of their insertion.
Simplification: the points are kept in exact arithmetic (`vtkPoints` stores single precision by default). -/
structure Vts (α K : Type*) where
  extent : Extent
  points : List (Pos 3 K)
  values : List α

/-- The content of one `.pvts` file: the whole extent, then for every piece its extent and the number of the `.vts` file
it refers to. -/
structure Pvts where
  whole : Extent
  pieces : List (Extent × ℕ)

/-- `SetExtent(info.gxs, info.gxs+info.gxm-1, info.gys, info.gys+info.gym-1, 0, 0)` (vtk.hpp:108, 111), 2D. -/
def extent2 (L : Fin 2 → Dir) (r : Fin 2 → ℕ) : Extent :=
  ⟨![(L 0).gxs (r 0), (L 1).gxs (r 1), 0],
   ![(L 0).gxs (r 0) + (L 0).gxm (r 0) - 1, (L 1).gxs (r 1) + (L 1).gxm (r 1) - 1, 0]⟩

/-- `SetExtent` of the 3D version (vtk.hpp:469, 472). -/
def extent3 (L : Fin 3 → Dir) (r : Fin 3 → ℕ) : Extent :=
  ⟨![(L 0).gxs (r 0), (L 1).gxs (r 1), (L 2).gxs (r 2)],
   ![(L 0).gxs (r 0) + (L 0).gxm (r 0) - 1, (L 1).gxs (r 1) + (L 1).gxm (r 1) - 1,
     (L 2).gxs (r 2) + (L 2).gxm (r 2) - 1]⟩

/-- The insertion loops of the 2D version (vtk.hpp:123-128 and 132-137): rows outside, columns inside, one point and one
value appended at each node of the ghosted window. -/
def insertLoop2 {α : Type*} (L : Fin 2 → Dir) (r : Fin 2 → ℕ) (pt : ℤ → ℤ → Pos 3 K) (val : ℤ → ℤ → α) :
    List (Pos 3 K) × List α :=
  (forRange ((L 1).gxs (r 1)) ((L 1).gxs (r 1) + (L 1).gxm (r 1))).foldl (fun s j =>
    (forRange ((L 0).gxs (r 0)) ((L 0).gxs (r 0) + (L 0).gxm (r 0))).foldl (fun s i =>
      (s.1 ++ [pt i j], s.2 ++ [val i j])) s) ([], [])

/-- The insertion loops of the 3D version (vtk.hpp:484-490 and 492-498). -/
def insertLoop3 {α : Type*} (L : Fin 3 → Dir) (r : Fin 3 → ℕ) (pt : ℤ → ℤ → ℤ → Pos 3 K)
    (val : ℤ → ℤ → ℤ → α) : List (Pos 3 K) × List α :=
  (forRange ((L 2).gxs (r 2)) ((L 2).gxs (r 2) + (L 2).gxm (r 2))).foldl (fun s k =>
    (forRange ((L 1).gxs (r 1)) ((L 1).gxs (r 1) + (L 1).gxm (r 1))).foldl (fun s j =>
      (forRange ((L 0).gxs (r 0)) ((L 0).gxs (r 0) + (L 0).gxm (r 0))).foldl (fun s i =>
        (s.1 ++ [pt i j k], s.2 ++ [val i j k])) s) s) ([], [])

/-- The pressure file of the process `r`, 2D `save_VTK` (cafes/io/vtk.hpp:79-167): ghost update of the solution, then
the loops. -/
def pressureFile2 (Lp : Fin 2 → Dir) (h : Pos 2 K) (p : NodeVec 2 1 K) (r : Fin 2 → ℕ) : Vts K K :=
  let psolp := globalToLocal Lp p
  let o := insertLoop2 Lp r (fun i j => ![2 * (i : K) * h 0, 2 * (j : K) * h 1, 0]) (fun i j => psolp ![i, j] 0)
  ⟨extent2 Lp r, o.1, o.2⟩

/-- The velocity file of the process `r`, 2D `save_VTK` (cafes/io/vtk.hpp:79-177); the third component is 0. -/
def velocityFile2 (Lv : Fin 2 → Dir) (h : Pos 2 K) (u : NodeVec 2 2 K) (r : Fin 2 → ℕ) : Vts (Pos 3 K) K :=
  let psolu := globalToLocal Lv u
  let o := insertLoop2 Lv r (fun i j => ![(i : K) * h 0, (j : K) * h 1, 0])
    (fun i j => ![psolu ![i, j] 0, psolu ![i, j] 1, 0])
  ⟨extent2 Lv r, o.1, o.2⟩

/-- The pressure file of the process `r`, 3D `save_VTK` (cafes/io/vtk.hpp:441-523). -/
def pressureFile3 (Lp : Fin 3 → Dir) (h : Pos 3 K) (p : NodeVec 3 1 K) (r : Fin 3 → ℕ) : Vts K K :=
  let psolp := globalToLocal Lp p
  let o := insertLoop3 Lp r (fun i j k => ![2 * (i : K) * h 0, 2 * (j : K) * h 1, 2 * (k : K) * h 2])
    (fun i j k => psolp ![i, j, k] 0)
  ⟨extent3 Lp r, o.1, o.2⟩

/-- The velocity file of the process `r`, 3D `save_VTK` (cafes/io/vtk.hpp:441-531). -/
def velocityFile3 (Lv : Fin 3 → Dir) (h : Pos 3 K) (u : NodeVec 3 3 K) (r : Fin 3 → ℕ) : Vts (Pos 3 K) K :=
  let psolu := globalToLocal Lv u
  let o := insertLoop3 Lv r (fun i j k => ![(i : K) * h 0, (j : K) * h 1, (k : K) * h 2])
    (fun i j k => ![psolu ![i, j, k] 0, psolu ![i, j, k] 1, psolu ![i, j, k] 2])
  ⟨extent3 Lv r, o.1, o.2⟩

/-- The `.pvts` file of the 2D version (cafes/io/vtk.hpp:184-210 and 221-247), written by the process of rank 0 from the
gathered `gxs, gxm, gys, gym`; `coord i` is the position in the process grid of the rank `i`, `size` the number of
ranks. -/
def pvts2 (L : Fin 2 → Dir) (size : ℕ) (coord : ℕ → Fin 2 → ℕ) : Pvts :=
  let x := fun i => (L 0).gxs (coord i 0)
  let sx := fun i => (L 0).gxm (coord i 0)
  let y := fun i => (L 1).gxs (coord i 1)
  let sy := fun i => (L 1).gxm (coord i 1)
  ⟨⟨![0, 0, 0], ![(L 0).m - 1, (L 1).m - 1, 0]⟩,
   (List.range size).map fun i => (⟨![x i, y i, 0], ![x i + sx i - 1, y i + sy i - 1, 0]⟩, i)⟩

/-- The `.pvts` file of the 3D version (cafes/io/vtk.hpp:544-566 and 576-598). -/
def pvts3 (L : Fin 3 → Dir) (size : ℕ) (coord : ℕ → Fin 3 → ℕ) : Pvts :=
  let x := fun i => (L 0).gxs (coord i 0)
  let sx := fun i => (L 0).gxm (coord i 0)
  let y := fun i => (L 1).gxs (coord i 1)
  let sy := fun i => (L 1).gxm (coord i 1)
  let z := fun i => (L 2).gxs (coord i 2)
  let sz := fun i => (L 2).gxm (coord i 2)
  ⟨⟨![0, 0, 0], ![(L 0).m - 1, (L 1).m - 1, (L 2).m - 1]⟩,
   (List.range size).map fun i => (⟨![x i, y i, z i], ![x i + sx i - 1, y i + sy i - 1, z i + sz i - 1]⟩, i)⟩

/-- One row of the particle file: the point, the radius, and when they are written the force and the torque. -/
structure Vtp (τ : Type*) where
  points : List (Pos 3 ℝ)
  radius : List ℝ
  forces : List (Pos 3 ℝ)
  torques : List τ

open Cafes.Geometry

/-- The `i`-th tuple of a preallocated array is overwritten (`SetPoint`, `SetValue`). -/
def setTuple {α : Type*} (l : List α) (i : ℕ) (a : α) : List α := l.set i a

/-- 2D `saveParticles` with forces and torques (cafes/io/vtk.hpp:636-699). The arrays of points and radii are allocated
with one entry per particle (content irrelevant, 0 here), the others grow. `forces[i]` and `torques[i]` are read with
`List.getD`: outside their size the C++ access is undefined. -/
noncomputable def saveParticles2 (parts : List (Shape 2)) (forces : List (Pos 2 ℝ)) (torques : List ℝ) : Vtp ℝ :=
  (parts.foldl (fun (s : ℕ × Vtp ℝ) p =>
    let i := s.1
    let f := forces.getD i 0
    (i + 1, ⟨setTuple s.2.points i ![p.center 0, p.center 1, 0], setTuple s.2.radius i (p.s 0),
      s.2.forces ++ [![f 0, f 1, 0]], s.2.torques ++ [torques.getD i 0]⟩))
    (0, ⟨List.replicate parts.length 0, List.replicate parts.length 0, [], []⟩)).2

/-- `saveParticles` without forces (cafes/io/vtk.hpp:702-751), for every dimension at least 2: only the first two
coordinates of the centre are read, the third one written is 0. -/
noncomputable def saveParticles [NeZero d] (parts : List (Shape d)) : Vtp ℝ :=
  (parts.foldl (fun (s : ℕ × Vtp ℝ) p =>
    let i := s.1
    (i + 1, ⟨setTuple s.2.points i ![p.center 0, p.center 1, 0], setTuple s.2.radius i (p.s 0),
      s.2.forces, s.2.torques⟩))
    (0, ⟨List.replicate parts.length 0, List.replicate parts.length 0, [], []⟩)).2

/-- 3D `saveParticles` with forces and torques (cafes/io/vtk.hpp:754-818). -/
noncomputable def saveParticles3 (parts : List (Shape 3)) (forces torques : List (Pos 3 ℝ)) : Vtp (Pos 3 ℝ) :=
  (parts.foldl (fun (s : ℕ × Vtp (Pos 3 ℝ)) p =>
    let i := s.1
    let f := forces.getD i 0
    let t := torques.getD i 0
    (i + 1, ⟨setTuple s.2.points i ![p.center 0, p.center 1, p.center 2], setTuple s.2.radius i (p.s 0),
      s.2.forces ++ [![f 0, f 1, f 2]], s.2.torques ++ [![t 0, t 1, t 2]]⟩))
    (0, ⟨List.replicate parts.length 0, List.replicate parts.length 0, [], []⟩)).2

end Cafes.Vtk
