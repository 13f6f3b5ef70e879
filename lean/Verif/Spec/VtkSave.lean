/-
What a user expects of the files of `save_VTK`: someone who opens a collection finds the pieces that it names.
-/
import Verif.Model.VtkSave
import Verif.Spec.Vtk

namespace Cafes.Vtk
variable {n : ℕ} {K : Type}

/-- The extent written in a piece. -/
def Doc.extent : Doc K → Option Extent
  | .scalars f => some f.extent
  | .vectors f => some f.extent
  | .collection _ => none

/-- A reader who finds the collection `all` complete finds every piece that it names complete, with the extent that it
announces; `piece i` is the name of the piece number `i`. -/
def Disk.Readable (disk : Disk n K) (all : Name n) (piece : Fin n → Name n) : Prop :=
  ∀ c, disk all = some (.complete (.collection c)) → ∀ q ∈ c.pieces, ∃ i : Fin n, i.val = q.2 ∧
    ∃ d, disk (piece i) = some (.complete d) ∧ d.extent = some q.1

/-- All the processes have finished. -/
def Save.Finished (s : Save n K) : Prop := ∀ r, s.todo r = []

end Cafes.Vtk
