/-
What a user expects of the files of `save_hdf5`.
-/
import Verif.Model.Hdf5Save
import Verif.Spec.Mesh

namespace Cafes.Hdf5
variable {n : ℕ} {F K : Type}

/-- The complete data file of a velocity `u` on a mesh of `mx` by `my` points and of a pressure `p` on a mesh of `px` by
`py` points: closed, each value at its place, nothing elsewhere. -/
def whole (mx my px py : ℤ) (u : NodeVec 2 2 K) (p : NodeVec 2 1 K) : H5 K where
  closed := true
  velocity := some fun j i c => if (0 ≤ i ∧ i < mx) ∧ (0 ≤ j ∧ j < my) then some (u ![i, j] c) else none
  pressure := some fun j i => if (0 ≤ i ∧ i < px) ∧ (0 ≤ j ∧ j < py) then some (p ![i, j] 0) else none

/-- The meshes are cut in blocks, and each block belongs to a process. -/
structure Job.Good (J : Job n F K) : Prop where
  wfv : ∀ i, (J.Lv i).WF
  wfp : ∀ i, (J.Lp i).WF
  allv : ∀ q, q ∈ procs J.Lv ↔ ∃ r, J.coord r = q
  allp : ∀ q, q ∈ procs J.Lp ↔ ∃ r, J.coord r = q

/-- All the processes have finished. -/
def State.Finished (s : State n F K) : Prop := ∀ r, s.todo r = []

/-- The data file that a call has to leave. -/
def Job.file (J : Job n F K) : H5 K := whole (J.Lv 0).m (J.Lv 1).m (J.Lp 0).m (J.Lp 1).m J.u J.p

end Cafes.Hdf5
