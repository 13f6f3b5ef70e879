/-
The construction of the boundary conditions from the rows written by the user (cafes/fem/bc.hpp:43-60 and 306-309).
-/
import Verif.Model.Dirichlet

namespace Cafes
variable {d : ℕ} {K : Type*}

/-- `std::copy(il.begin(), il.end(), conditions_.begin())` (cafes/fem/bc.hpp:48) from the position `k` on: one row after
another is written. `none` is a write behind the end of the array of `2 d` rows (cafes/fem/bc.hpp:51). -/
def copyRows (arr : BC d K) (k : ℕ) : List (Fin d → Cond d K) → Option (BC d K)
  | [] => some arr
  | row :: il => if k < 2 * d then copyRows (Function.update arr k row) (k + 1) il else none

/-- `dirichlet_conditions(il)` and `make_bc(il)` (cafes/fem/bc.hpp:46-49 and 306-309). The array has no initialiser: `mem` is
what the memory held. Simplification: what the memory held is taken as conditions, null or callable; a call through any
other address is undefined and worse. -/
def makeBC (mem : BC d K) (il : List (Fin d → Cond d K)) : Option (BC d K) := copyRows mem 0 il

end Cafes
