/-
Specification vocabulary for the work arrays.
-/
import Verif.Model.Work

namespace Cafes.Work
variable {A : Type*}

/-- Somebody holds the array `i`: it was created and was not given back. -/
def Live (P : Pool A) (i : ℕ) : Prop := i < P.next ∧ i ∉ P.free

/-- No array was given back twice, and all those given back exist. -/
structure Sound (P : Pool A) : Prop where
  nodup : P.free.Nodup
  created : ∀ i ∈ P.free, i < P.next

/-- `P'` is left by a function that behaves well on the arrays `P`: it gives back exactly what it took, and it does
not touch the arrays held by others. -/
structure Returned (P P' : Pool A) : Prop where
  sound : Sound P'
  same : ∀ i, Live P' i ↔ Live P i
  kept : ∀ i, Live P i → P'.mem i = P.mem i

end Cafes.Work
