/-
Model of the P1 (Q1) weights of cafes/fem/quadrature.hpp.
-/
import Verif.Model.Box
import Mathlib.Algebra.Field.Defs

namespace Cafes
variable {K : Type*} [Field K]

/-- `P1_integration` in 2D (cafes/fem/quadrature.hpp:39-49). -/
def p1Integration2 (x h : Pos 2 K) : Fin 4 → K :=
  let c := 1 / (h 0 * h 1)
  ![c * (x 0 - h 0) * (x 1 - h 1),
    c * x 0 * (h 1 - x 1),
    c * (h 0 - x 0) * x 1,
    c * x 0 * x 1]

/-- `P1_integration_grad` in 2D (cafes/fem/quadrature.hpp:51-61); the factor `c` is commented out
in the code. -/
def p1IntegrationGrad2 (x h : Pos 2 K) : Fin 4 → Pos 2 K :=
  ![![x 1 - h 1, x 0 - h 0],
    ![h 1 - x 1, -x 0],
    ![-x 1, h 0 - x 0],
    ![x 1, x 0]]

/-- `P1_integration` in 3D (cafes/fem/quadrature.hpp:63-78). -/
def p1Integration3 (x h : Pos 3 K) : Fin 8 → K :=
  let c := 1 / (h 0 * h 1 * h 2)
  ![c * (h 0 - x 0) * (h 1 - x 1) * (h 2 - x 2),
    c * x 0 * (h 1 - x 1) * (h 2 - x 2),
    c * (h 0 - x 0) * x 1 * (h 2 - x 2),
    c * x 0 * x 1 * (h 2 - x 2),
    c * (h 0 - x 0) * (h 1 - x 1) * x 2,
    c * x 0 * (h 1 - x 1) * x 2,
    c * (h 0 - x 0) * x 1 * x 2,
    c * x 0 * x 1 * x 2]

/-- `P1_integration_grad` in 3D (cafes/fem/quadrature.hpp:80-102). -/
def p1IntegrationGrad3 (x h : Pos 3 K) : Fin 8 → Pos 3 K :=
  ![![-(h 1 - x 1) * (h 2 - x 2), -(h 0 - x 0) * (h 2 - x 2), -(h 0 - x 0) * (h 1 - x 1)],
    ![(h 1 - x 1) * (h 2 - x 2), -x 0 * (h 2 - x 2), -x 0 * (h 1 - x 1)],
    ![-x 1 * (h 2 - x 2), (h 0 - x 0) * (h 2 - x 2), -(h 0 - x 0) * x 1],
    ![x 1 * (h 2 - x 2), x 0 * (h 2 - x 2), -x 0 * x 1],
    ![-(h 1 - x 1) * x 2, -(h 0 - x 0) * x 2, (h 0 - x 0) * (h 1 - x 1)],
    ![(h 1 - x 1) * x 2, -x 0 * x 2, x 0 * (h 1 - x 1)],
    ![-x 1 * x 2, (h 0 - x 0) * x 2, (h 0 - x 0) * x 1],
    ![x 1 * x 2, x 0 * x 2, x 0 * x 1]]

end Cafes
