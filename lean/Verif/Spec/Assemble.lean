/-
Specification vocabulary for assembled matrices: the dofs of the composite (velocity, pressure) space
and the matrix-vector product.
-/
import Verif.Model.Assemble
import Verif.Spec.Operator
import Verif.Spec.Dirichlet
import Mathlib.Data.Finset.Sum

namespace Cafes
variable {K : Type*} [CommRing K]

/-- All the dofs of the composite space: two components per velocity node, one per pressure node. -/
def dofs (Lv Lp : Fin 2 → Dir) : Finset Dof :=
  (gridNodes Lv ×ˢ Finset.univ).disjSum (gridNodes Lp)

/-- Matrix-vector product on the composite space. -/
def applyMat (Lv Lp : Fin 2 → Dir) (A : GMat K) (x : Dof → K) (p : Dof) : K :=
  ∑ q ∈ dofs Lv Lp, A p q * x q

/-- The composite vector made of a velocity and a pressure. -/
def pack (u : NodeVec 2 2 K) (p : NodeVec 2 1 K) : Dof → K :=
  Sum.elim (fun gc => u gc.1 gc.2) (fun g => p g 0)

end Cafes
