/-
Specification vocabulary for meshes: the set of processes, nodes and elements of a global grid.
-/
import Verif.Model.Mesh
import Verif.Spec.Box
import Mathlib.Data.Fintype.Pi
import Mathlib.Data.Finset.Range

namespace Cafes

/-- The processes of a DMDA: one grid coordinate per direction. -/
def procs {d : ℕ} (L : Fin d → Dir) : Finset (Fin d → ℕ) :=
  Fintype.piFinset fun i => Finset.range (L i).l.length

/-- The number of elements in one direction: `M - 1` when not periodic, `M` when periodic. -/
def Dir.nElem (D : Dir) : ℤ := if D.periodic then D.m else D.m - 1

/-- All the elements of the grid. -/
def globalElems {d : ℕ} (L : Fin d → Dir) : Box d ℤ := ⟨fun _ => 0, fun i => (L i).nElem⟩

/-- All the nodes of the grid. -/
def globalNodes {d : ℕ} (L : Fin d → Dir) : Box d ℤ := ⟨fun _ => 0, fun i => (L i).m⟩

/-- The ghosted window of a process: the indices at which its local arrays may be accessed. -/
def ghostWindow {d : ℕ} (L : Fin d → Dir) (r : Fin d → ℕ) : Box d ℤ :=
  ⟨fun i => (L i).gxs (r i), fun i => (L i).gxe (r i)⟩

end Cafes
