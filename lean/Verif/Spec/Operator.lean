/-
Specification vocabulary for the operators: finite sets of grid nodes and elements, Euclidean
product of nodal vectors.
-/
import Verif.Spec.Mesh
import Mathlib.Order.Interval.Finset.Defs
import Mathlib.Data.Int.Interval
import Mathlib.Algebra.BigOperators.Fin

namespace Cafes

/-- The nodes of the grid. -/
def gridNodes {d : ℕ} (L : Fin d → Dir) : Finset (Pos d ℤ) :=
  Fintype.piFinset fun i => Finset.Ico 0 (L i).m

/-- The elements of the grid. -/
def gridElems {d : ℕ} (L : Fin d → Dir) : Finset (Pos d ℤ) :=
  Fintype.piFinset fun i => Finset.Ico 0 (L i).nElem

/-- Euclidean product of two nodal vectors of the grid. -/
def dot {d n : ℕ} {K : Type*} [CommRing K] (L : Fin d → Dir) (y z : Pos d ℤ → Fin n → K) : K :=
  ∑ g ∈ gridNodes L, ∑ c, y g c * z g c

/-- Two layouts of the same grid: same sizes and periodicities, any distribution. -/
def SameGrid {d : ℕ} (L L' : Fin d → Dir) : Prop :=
  ∀ i, (L i).m = (L' i).m ∧ (L i).periodic = (L' i).periodic

end Cafes
