/-
`save_hdf5` (cafes/io/hdf5.hpp) as a program of the processes on one file system, step by step, for a sequence of calls:
what is on the disk at every moment of a run, so also when the run is killed.

Contract of PETSc/HDF5 (parallel): creating the file, creating a data set and closing the file are collective, they take
place when all the processes are in the same call; the values of a process are written into the file by this process on
its own, at the places of its nodes in the natural order (slowest direction first). Simplifications: a description is
written in two steps, opened (truncated) and closed (complete); what the operating system still has in memory when a
machine stops is not modelled; an I/O error is not modelled. Only the plane case exists: `create_xdmf` takes the two
steps of a plane mesh.
-/
import Verif.Model.Mesh
import Verif.Model.Post

namespace Cafes.Hdf5

/-- A `.h5` file: closed or not, and its two data sets, when they exist; a place holds nothing until it is written. A
velocity is at the place `[j][i][c]`, a pressure at the place `[j][i]`. -/
structure H5 (K : Type) where
  closed : Bool
  velocity : Option (ℤ → ℤ → Fin 2 → Option K)
  pressure : Option (ℤ → ℤ → Option K)

/-- What a complete `.xdmf` file says: the name of the `.h5` file, and the two grids. -/
structure Xdmf (F K : Type) where
  h5 : F
  pressure : XdmfGrid K
  velocity : XdmfGrid K

/-- A `.xdmf` file: being written, or complete. -/
inductive XFile (F K : Type)
  | opened
  | complete (x : Xdmf F K)

/-- The disk: the files `<path>/<filename>.h5` and `<path>/<filename>.xdmf` that exist. -/
structure Disk (F K : Type) where
  h5 : F → Option (H5 K)
  xdmf : F → Option (XFile F K)

/-- The arguments of one call of `save_hdf5` on `n` processes: the name, the two meshes of `dm`, the step, the two parts
of `sol`, and the place of each process in the grid of the processes. -/
structure Job (n : ℕ) (F K : Type) where
  name : F
  Lv : Fin 2 → Dir
  Lp : Fin 2 → Dir
  h : Pos 2 K
  u : NodeVec 2 2 K
  p : NodeVec 2 1 K
  coord : Fin n → Fin 2 → ℕ

/-- The collective operations. -/
inductive Coll (F : Type)
  /-- `PetscViewerHDF5Open(…, FILE_MODE_WRITE, …)` -/
  | create (f : F)
  /-- beginning of `VecView(solu, …)`: the data set `velocity` -/
  | dataVelocity (f : F)
  /-- beginning of `VecView(solp, …)`: the data set `pressure` -/
  | dataPressure (f : F)
  /-- `PetscViewerDestroy` -/
  | close (f : F)

/-- The operations of one process. -/
inductive Loc (n : ℕ) (F K : Type)
  /-- `VecView(solu, …)`: the values of the process `r` -/
  | putVelocity (J : Job n F K) (r : Fin n)
  /-- `VecView(solp, …)`: the values of the process `r` -/
  | putPressure (J : Job n F K) (r : Fin n)
  /-- `myfile.open` in `create_xdmf` -/
  | openXdmf (f : F)
  /-- `myfile.close` in `create_xdmf` -/
  | closeXdmf (f : F) (x : Xdmf F K)

/-- An instruction of a process. -/
inductive Act (n : ℕ) (F K : Type)
  | coll (c : Coll F)
  | loc (a : Loc n F K)

variable {n : ℕ} {F K : Type} [DecidableEq F]

/-- Changing a `.h5` file. -/
def Disk.change (D : Disk F K) (f : F) (g : H5 K → H5 K) : Disk F K :=
  { D with h5 := fun x => if x = f then (D.h5 x).map g else D.h5 x }

/-- The effect of a collective operation (cafes/io/hdf5.hpp:134-156). `FILE_MODE_WRITE` truncates an existing file. -/
def Coll.run (D : Disk F K) : Coll F → Disk F K
  | .create f => { D with h5 := fun x => if x = f then some ⟨false, none, none⟩ else D.h5 x }
  | .dataVelocity f => D.change f fun a => { a with velocity := some fun _ _ _ => none }
  | .dataPressure f => D.change f fun a => { a with pressure := some fun _ _ => none }
  | .close f => D.change f fun a => { a with closed := true }

/-- The nodes of a process: `xs ≤ i < xs + xm` and `ys ≤ j < ys + ym`. -/
def Owns (L : Fin 2 → Dir) (q : Fin 2 → ℕ) (i j : ℤ) : Prop :=
  ((L 0).xs (q 0) ≤ i ∧ i < (L 0).xs (q 0) + (L 0).xm (q 0)) ∧
  ((L 1).xs (q 1) ≤ j ∧ j < (L 1).xs (q 1) + (L 1).xm (q 1))

instance (L : Fin 2 → Dir) (q : Fin 2 → ℕ) (i j : ℤ) : Decidable (Owns L q i j) := by unfold Owns; infer_instance

/-- The effect of an operation of one process (cafes/io/hdf5.hpp:143-152 and 53-106). -/
def Loc.run (D : Disk F K) : Loc n F K → Disk F K
  | .putVelocity J r => D.change J.name fun a => { a with
      velocity := a.velocity.map (fun v j i c => if Owns J.Lv (J.coord r) i j then some (J.u ![i, j] c) else v j i c) }
  | .putPressure J r => D.change J.name fun a => { a with
      pressure := a.pressure.map (fun v j i => if Owns J.Lp (J.coord r) i j then some (J.p ![i, j] 0) else v j i) }
  | .openXdmf f => { D with xdmf := fun x => if x = f then some .opened else D.xdmf x }
  | .closeXdmf f x => { D with xdmf := fun y => if y = f then some (.complete x) else D.xdmf y }

/-- What `create_xdmf(path, filename, infou, h)` writes (cafes/io/hdf5.hpp:43-107). -/
def Job.xdmf [Field K] (J : Job n F K) : Xdmf F K :=
  ⟨J.name, xdmfPressure (J.Lv 0).m (J.Lv 1).m J.h, xdmfVelocity (J.Lv 0).m (J.Lv 1).m J.h⟩

/-- `save_hdf5` (cafes/io/hdf5.hpp:110-163) for the process `r`: the file, the velocity, the pressure, the end of the
file, then the description by the process 0. -/
def save [NeZero n] [Field K] (J : Job n F K) (r : Fin n) : List (Act n F K) :=
  [.coll (.create J.name),
   .coll (.dataVelocity J.name), .loc (.putVelocity J r),
   .coll (.dataPressure J.name), .loc (.putPressure J r),
   .coll (.close J.name)] ++
  if r = 0 then [.loc (.openXdmf J.name), .loc (.closeXdmf J.name J.xdmf)] else []

/-- A sequence of calls, as in tests/test_interp.cpp:51-63. -/
def session [NeZero n] [Field K] (jobs : List (Job n F K)) (r : Fin n) : List (Act n F K) :=
  jobs.flatMap fun J => save J r

/-- A state of a run: the instructions left to each process and the disk. -/
structure State (n : ℕ) (F K : Type) where
  todo : Fin n → List (Act n F K)
  disk : Disk F K

/-- The steps: all the processes are in the same collective operation, or one process does an operation of its own. -/
inductive Step : State n F K → State n F K → Prop
  | coll (s : State n F K) (c : Coll F) (l : Fin n → List (Act n F K)) : (∀ r, s.todo r = .coll c :: l r) →
      Step s ⟨l, c.run s.disk⟩
  | loc (s : State n F K) (r : Fin n) (a : Loc n F K) (l : List (Act n F K)) : s.todo r = .loc a :: l →
      Step s ⟨Function.update s.todo r l, a.run s.disk⟩

/-- The runs of a number of steps. -/
inductive Run : ℕ → State n F K → State n F K → Prop
  | zero (s) : Run 0 s s
  | succ (m) (s t u) : Run m s t → Step t u → Run (m + 1) s u

end Cafes.Hdf5
