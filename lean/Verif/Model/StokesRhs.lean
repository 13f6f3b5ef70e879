import Verif.Model.Dirichlet

/-!
Model of `stokes::setup_RHS` (cafes/problem/stokes.hpp:311-326): the velocity part of the right-hand
side of the fluid problem.
-/

namespace Cafes

variable {d : ℕ} {K : Type*}

/-- `stokes::setup_RHS` (cafes/problem/stokes.hpp:311-326): the source is added when there is one, then
the Dirichlet values are written. `rhs` is the velocity part of the member vector `rhs`; the pressure
part is not touched. -/
def stokesSetupRHS [CommRing K] (L : Fin d → Dir) (rs : List (Fin d → ℕ)) (src : Fin d → Cond d K)
    (bc : BC d K) (h : Pos d K)
    (applyMass : (Fin d → ℕ) → NodeVec d d K → NodeVec d d K → NodeVec d d K)
    (rhs : NodeVec d d K) : NodeVec d d K :=
  setDirichletOnRHS L rs bc h (if hasCondition src then setRhs L rs src h applyMass rhs else rhs)

end Cafes
