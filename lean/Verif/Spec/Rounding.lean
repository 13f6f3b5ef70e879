/-
What is asked of a floating point arithmetic (the standard model: each operation is exact up to a relative error `u`), and of
the order in which the values of the processes are added.
-/
import Verif.Model.Rounding
import Verif.Spec.Operator
import Mathlib.Data.Int.Log
import Mathlib.Algebra.Order.Round
import Mathlib.Data.Real.Archimedean

namespace Cafes.Rounding
open Cafes

/-- The standard model of floating point arithmetic, with unit roundoff `u`. -/
structure Rounds (A : Arith) (u : ℝ) : Prop where
  nonneg : 0 ≤ u
  add : ∀ a b, |A.add a b - (a + b)| ≤ u * |a + b|
  mul : ∀ a b, |A.mul a b - a * b| ≤ u * |a * b|

/-- Every local entry (of a process, ghosts included) that is behind the node comes once, in any order. -/
def IsOrder {d n : ℕ} (L : Fin d → Dir) (ord : Order d n) : Prop :=
  ∀ g c, (ord g c).Nodup ∧ ∀ q, q ∈ ord g c ↔ q.1 ∈ procs L ∧ q.2 ∈ (ghostWindow L q.1).visited ∧ wrap L q.2 = g

/-- The relative error of `k` roundings. -/
noncomputable def gamma (u : ℝ) (k : ℕ) : ℝ := (1 + u) ^ k - 1

/-- The sum of the absolute values of the products that an operator with the element matrix `M`, the same for all the
components, adds at a node. -/
noncomputable def termsDiag {d n N : ℕ} (L : Fin d → Dir) (elem : Pos d ℤ → Fin N → Pos d ℤ) (M : Fin N → Fin N → ℝ)
    (x : NodeVec d n ℝ) : NodeVec d n ℝ := fun g c =>
  ∑ e ∈ gridElems L, ∑ k1, if wrap L (elem e k1) = g then ∑ k2, |x (wrap L (elem e k2)) c * M k1 k2| else 0

/-- The same with a matrix that couples the components. -/
noncomputable def termsTensor {d n N : ℕ} (L : Fin d → Dir) (elem : Pos d ℤ → Fin N → Pos d ℤ)
    (M : Fin N → Fin N → Fin n → Fin n → ℝ) (x : NodeVec d n ℝ) : NodeVec d n ℝ := fun g c =>
  ∑ e ∈ gridElems L, ∑ k1, if wrap L (elem e k1) = g then ∑ k2, ∑ c2, |x (wrap L (elem e k2)) c2 * M k1 k2 c c2| else 0

/-- The products of the pressure at a node of the velocity. -/
noncomputable def termsVel {d n NP NV : ℕ} (Lv Lp : Fin d → Dir) (elemP : Pos d ℤ → Fin NP → Pos d ℤ)
    (elemV : Pos d ℤ → Fin NV → Pos d ℤ) (B : Fin NP → Fin NV → Fin n → ℝ) (p : NodeVec d 1 ℝ) : NodeVec d n ℝ := fun g c =>
  ∑ e ∈ gridElems Lp, ∑ k, if wrap Lv (elemV e k) = g then ∑ ip, |p (wrap Lp (elemP e ip)) 0 * B ip k c| else 0

/-- The products of the velocity at a node of the pressure. -/
noncomputable def termsPres {d n NP NV : ℕ} (Lv Lp : Fin d → Dir) (elemP : Pos d ℤ → Fin NP → Pos d ℤ)
    (elemV : Pos d ℤ → Fin NV → Pos d ℤ) (B : Fin NP → Fin NV → Fin n → ℝ) (v : NodeVec d n ℝ) : NodeVec d 1 ℝ := fun g _ =>
  ∑ e ∈ gridElems Lp, ∑ ip, if wrap Lp (elemP e ip) = g then ∑ k, ∑ c, |v (wrap Lv (elemV e k)) c * B ip k c| else 0

/-- A value rounded to `p` binary digits, to nearest. -/
noncomputable def roundTo (p : ℕ) (x : ℝ) : ℝ := (round (x * 2 ^ ((p : ℤ) - 1 - Int.log 2 |x|)) : ℝ) / 2 ^ ((p : ℤ) - 1 - Int.log 2 |x|)

/-- Binary floating point with `p` digits and any exponent (`p = 53`: the `double` of the code, without its bounds on the
exponent). -/
noncomputable def binary (p : ℕ) : Arith := ⟨fun a b => roundTo p (a + b), fun a b => roundTo p (a * b)⟩

end Cafes.Rounding
