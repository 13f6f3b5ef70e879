/-
`save_VTK` (cafes/io/vtk.hpp) as a program of the processes on one file system, step by step: what is on the disk at
every moment of a run, so also when the run is killed.

The processes only meet in `MPI_Gather` to the process 0. A process other than 0 gives its value and goes on; how long
it waits is left to the implementation of MPI (`Allowed`), which only has to let it go when the process 0 is in the same
call. The process 0 goes on when it has the values of all.

Simplifications: a file is written in two steps, opened (truncated) and closed (complete); what the operating system
still has in memory when a machine stops is not modelled; the ghost exchange of lines 98-102 and 459-463 comes before
(the content of the files is the one of Verif/Model/Vtk.lean).
-/
import Verif.Model.Vtk

namespace Cafes.Vtk

/-- The files of one call of `save_VTK`. -/
inductive Name (n : ℕ)
  /-- `<path>/<filename>_pressure_<rank>.vts` -/
  | pressure (r : Fin n)
  /-- `<path>/<filename>_velocity_<rank>.vts` -/
  | velocity (r : Fin n)
  /-- `<path>/<filename>_pressure.pvts` -/
  | pressureAll
  /-- `<path>/<filename>_velocity.pvts` -/
  | velocityAll
deriving DecidableEq

/-- What a complete file holds. -/
inductive Doc (K : Type)
  | scalars (f : Vts K K)
  | vectors (f : Vts (Pos 3 K) K)
  | collection (f : Pvts)

/-- A file: being written, or complete. -/
inductive File (K : Type)
  | opened
  | complete (d : Doc K)

/-- The disk: the files that exist. -/
abbrev Disk (n : ℕ) (K : Type) := Name n → Option (File K)

/-- The instructions of a process. -/
inductive Act (n : ℕ) (K : Type)
  /-- `MPI_Gather(&v, 1, MPI_INT, array, 1, MPI_INT, 0, PETSC_COMM_WORLD)` -/
  | gather (v : ℤ)
  /-- the file is created or truncated -/
  | openFile (f : Name n)
  /-- the file is closed; what was written is a function of the arrays gathered so far, in order -/
  | closeFile (f : Name n) (d : List (Fin n → ℤ) → Doc K)

/-- A state of a run. -/
structure Save (n : ℕ) (K : Type) where
  /-- the instructions left -/
  todo : Fin n → List (Act n K)
  /-- the values given by each process to the calls of `MPI_Gather`, in order -/
  sent : Fin n → List ℤ
  /-- the arrays received by the process 0 -/
  got : List (Fin n → ℤ)
  disk : Disk n K

/-- When an implementation of MPI lets a process leave `MPI_Gather`: at least when the process 0 is in the same call. -/
def Allowed {n : ℕ} [NeZero n] {K : Type} (ret : Save n K → Fin n → Prop) : Prop :=
  ∀ s r, (∃ v l, s.todo 0 = .gather v :: l) → (s.sent r).length = s.got.length → ret s r

/-- The steps of the processes. -/
inductive SaveStep {n : ℕ} [NeZero n] {K : Type} (ret : Save n K → Fin n → Prop) : Save n K → Save n K → Prop
  /-- a process other than 0 gives its value -/
  | send (s : Save n K) (r : Fin n) (v : ℤ) (l : List (Act n K)) : r ≠ 0 → s.todo r = .gather v :: l → ret s r →
      SaveStep ret s { s with
        todo := Function.update s.todo r l
        sent := Function.update s.sent r (s.sent r ++ [v]) }
  /-- the process 0 has the values of all the others -/
  | recv (s : Save n K) (v : ℤ) (l : List (Act n K)) : s.todo 0 = .gather v :: l →
      (∀ r, r ≠ 0 → s.got.length < (s.sent r).length) →
      SaveStep ret s { s with
        todo := Function.update s.todo 0 l
        sent := Function.update s.sent 0 (s.sent 0 ++ [v])
        got := s.got ++ [fun r => (Function.update s.sent 0 (s.sent 0 ++ [v]) r).getD s.got.length 0] }
  | openFile (s : Save n K) (r : Fin n) (f : Name n) (l : List (Act n K)) : s.todo r = .openFile f :: l →
      SaveStep ret s { s with
        todo := Function.update s.todo r l
        disk := Function.update s.disk f (some .opened) }
  | closeFile (s : Save n K) (r : Fin n) (f : Name n) (d : List (Fin n → ℤ) → Doc K) (l : List (Act n K)) :
      s.todo r = .closeFile f d :: l →
      SaveStep ret s { s with
        todo := Function.update s.todo r l
        disk := Function.update s.disk f (some (.complete (d s.got))) }

/-- The runs of a number of steps. -/
inductive SaveRun {n : ℕ} [NeZero n] {K : Type} (ret : Save n K → Fin n → Prop) : ℕ → Save n K → Save n K → Prop
  | zero (s) : SaveRun ret 0 s s
  | succ (m) (s t u) : SaveRun ret m s t → SaveStep ret t u → SaveRun ret (m + 1) s u

/-- The beginning of a call, with `disk` on the disk. -/
def Save.start {n : ℕ} {K : Type} (prog : Fin n → List (Act n K)) (disk : Disk n K) : Save n K :=
  ⟨prog, fun _ => [], [], disk⟩

variable {K : Type} [Field K] {n : ℕ}

/-- A file written by a process. -/
def writeFile (f : Name n) (d : List (Fin n → ℤ) → Doc K) : List (Act n K) := [.openFile f, .closeFile f d]

/-- The pieces named in a `.pvts` file of the 2D version, from the gathered arrays (vtk.hpp:202-206 and 239-243). -/
def collection2 (L : Fin 2 → Dir) (x sx y sy : Fin n → ℤ) : Pvts :=
  ⟨⟨![0, 0, 0], ![(L 0).m - 1, (L 1).m - 1, 0]⟩,
   (List.finRange n).map fun i => (⟨![x i, y i, 0], ![x i + sx i - 1, y i + sy i - 1, 0]⟩, i.val)⟩

/-- The pieces named in a `.pvts` file of the 3D version (vtk.hpp:560-561 and 592-593). -/
def collection3 (L : Fin 3 → Dir) (x sx y sy z sz : Fin n → ℤ) : Pvts :=
  ⟨⟨![0, 0, 0], ![(L 0).m - 1, (L 1).m - 1, (L 2).m - 1]⟩,
   (List.finRange n).map fun i => (⟨![x i, y i, z i], ![x i + sx i - 1, y i + sy i - 1, z i + sz i - 1]⟩, i.val)⟩

/-- The calls of `MPI_Gather` of the 2D version (vtk.hpp:154-161 and 212-219); PETSc sets `gzs = 0` and `gzm = 1` in
2D. -/
def gathers2 (L : Fin 2 → Dir) (r : Fin 2 → ℕ) : List (Act n K) :=
  [.gather ((L 0).gxs (r 0)), .gather ((L 0).gxm (r 0)), .gather ((L 1).gxs (r 1)), .gather ((L 1).gxm (r 1)),
   .gather 0, .gather 1]

/-- The calls of `MPI_Gather` of the 3D version (vtk.hpp:535-542 and 567-574). -/
def gathers3 (L : Fin 3 → Dir) (r : Fin 3 → ℕ) : List (Act n K) :=
  [.gather ((L 0).gxs (r 0)), .gather ((L 0).gxm (r 0)), .gather ((L 1).gxs (r 1)), .gather ((L 1).gxm (r 1)),
   .gather ((L 2).gxs (r 2)), .gather ((L 2).gxm (r 2))]

/-- `save_VTK`, 2D (cafes/io/vtk.hpp:79-262), for the process of rank `r`: the calls of `MPI_Gather` for the pressure, the
two files of the process, the collection of the pressure by the process 0, the calls for the velocity, the collection of
the velocity by the process 0. The arrays `x, sx, y, sy, z, sz` are the last six gathered. -/
def save2 [NeZero n] (Lv Lp : Fin 2 → Dir) (h : Pos 2 K) (u : NodeVec 2 2 K) (p : NodeVec 2 1 K) (coord : ℕ → Fin 2 → ℕ)
    (r : Fin n) : List (Act n K) :=
  gathers2 Lp (coord r) ++
  writeFile (.pressure r) (fun _ => .scalars (pressureFile2 Lp h p (coord r))) ++
  writeFile (.velocity r) (fun _ => .vectors (velocityFile2 Lv h u (coord r))) ++
  (if r = 0 then writeFile .pressureAll fun g =>
    .collection (collection2 Lp (g.getD 0 0) (g.getD 1 0) (g.getD 2 0) (g.getD 3 0)) else []) ++
  gathers2 Lv (coord r) ++
  (if r = 0 then writeFile .velocityAll fun g =>
    .collection (collection2 Lv (g.getD 6 0) (g.getD 7 0) (g.getD 8 0) (g.getD 9 0)) else [])

/-- `save_VTK`, 3D (cafes/io/vtk.hpp:441-617), for the process of rank `r`: here the two files of the process come before
the calls of `MPI_Gather`. -/
def save3 [NeZero n] (Lv Lp : Fin 3 → Dir) (h : Pos 3 K) (u : NodeVec 3 3 K) (p : NodeVec 3 1 K) (coord : ℕ → Fin 3 → ℕ)
    (r : Fin n) : List (Act n K) :=
  writeFile (.pressure r) (fun _ => .scalars (pressureFile3 Lp h p (coord r))) ++
  writeFile (.velocity r) (fun _ => .vectors (velocityFile3 Lv h u (coord r))) ++
  gathers3 Lp (coord r) ++
  (if r = 0 then writeFile .pressureAll fun g =>
    .collection (collection3 Lp (g.getD 0 0) (g.getD 1 0) (g.getD 2 0) (g.getD 3 0) (g.getD 4 0) (g.getD 5 0)) else []) ++
  gathers3 Lv (coord r) ++
  (if r = 0 then writeFile .velocityAll fun g =>
    .collection (collection3 Lv (g.getD 6 0) (g.getD 7 0) (g.getD 8 0) (g.getD 9 0) (g.getD 10 0) (g.getD 11 0)) else [])

end Cafes.Vtk
