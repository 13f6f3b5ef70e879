/-
Specification of the VTK files: how a reader of a structured grid associates points and values to the nodes of an extent.
-/
import Verif.Model.Vtk

namespace Cafes.Vtk

/-- Number of nodes of an extent along one direction (the bounds are included). -/
def Extent.size (E : Extent) (a : Fin 3) : ℤ := E.hi a - E.lo a + 1

/-- Number of nodes of an extent. -/
def Extent.count (E : Extent) : ℤ := E.size 0 * E.size 1 * E.size 2

/-- The node `p` belongs to the extent. -/
def Extent.Mem (E : Extent) (p : Pos 3 ℤ) : Prop := ∀ a, E.lo a ≤ p a ∧ p a ≤ E.hi a

/-- The place of the node `p` in the arrays of a structured grid: first direction fastest, third slowest. -/
def Extent.index (E : Extent) (p : Pos 3 ℤ) : ℕ :=
  ((p 0 - E.lo 0) + E.size 0 * ((p 1 - E.lo 1) + E.size 1 * (p 2 - E.lo 2))).toNat

/-- The file has as many points and values as its extent announces. -/
def Vts.Complete {α K : Type*} (F : Vts α K) : Prop :=
  (F.points.length : ℤ) = F.extent.count ∧ (F.values.length : ℤ) = F.extent.count

/-- A reader finds in the file the node `p`, at the point `x`, with the value `v`. -/
def Vts.Says {α K : Type*} (F : Vts α K) (p : Pos 3 ℤ) (x : Pos 3 K) (v : α) : Prop :=
  F.extent.Mem p ∧ F.points[F.extent.index p]? = some x ∧ F.values[F.extent.index p]? = some v

/-- The ranks `0, …, size - 1` are the processes of the grid, each once (`MPI_Comm_size` is the number of processes of
the DMDA). -/
def Ranking {d : ℕ} (procs : Finset (Fin d → ℕ)) (size : ℕ) (coord : ℕ → Fin d → ℕ) : Prop :=
  Set.BijOn coord (Set.Iio size) procs

end Cafes.Vtk
