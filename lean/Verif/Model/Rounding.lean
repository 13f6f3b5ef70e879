/-
The matrix-free operators in floating point: the loops of cafes/fem/operator.hpp and the sum of the ghost values of
cafes/petsc/vec.hpp with the arithmetic left open, operation by operation and in the order of the code. With the exact
arithmetic these are the operators of Verif/Model/Operator.lean (`C122_exact2`, `C122_exact3`).

Simplifications: numbers are real numbers on which an operation returns some real number (no overflow, no NaN); `u -= t` is
the addition of `-t`; each product is rounded (no fused operations).
-/
import Verif.Model.Dirichlet
import Mathlib.Data.Real.Basic

namespace Cafes.Rounding
open Cafes

/-- The operations of the machine. -/
structure Arith where
  add : ℝ → ℝ → ℝ
  mul : ℝ → ℝ → ℝ

/-- The operations without rounding. -/
def Arith.exact : Arith := ⟨fun a b => a + b, fun a b => a * b⟩

variable {d n N : ℕ} (A : Arith)

/-- `u = y.at(p); u[c] += v` (used throughout cafes/fem/operator.hpp). -/
noncomputable def addAt (y : NodeVec d n ℝ) (p : Pos d ℤ) (c : Fin n) (v : ℝ) : NodeVec d n ℝ :=
  fun q e => if q = p ∧ e = c then A.add (y q e) v else y q e

/-- `kernel_diag_block` (cafes/fem/operator.hpp:48-68). -/
noncomputable def kernelDiagBlock (elem : Pos d ℤ → Fin N → Pos d ℤ) (M : Fin N → Fin N → ℝ) (x : NodeVec d n ℝ)
    (pos : Pos d ℤ) (y : NodeVec d n ℝ) : NodeVec d n ℝ :=
  (List.finRange N).foldl (fun y k1 =>
    (List.finRange N).foldl (fun y k2 =>
      (List.finRange n).foldl (fun y c =>
        addAt A y (elem pos k1) c (A.mul (x (elem pos k2) c) (M k1 k2))) y) y) y

/-- `kernel_tensor_block` (cafes/fem/operator.hpp:70-93). -/
noncomputable def kernelTensorBlock (elem : Pos d ℤ → Fin N → Pos d ℤ) (M : Fin N → Fin N → Fin n → Fin n → ℝ)
    (x : NodeVec d n ℝ) (pos : Pos d ℤ) (y : NodeVec d n ℝ) : NodeVec d n ℝ :=
  (List.finRange N).foldl (fun y k1 =>
    (List.finRange N).foldl (fun y k2 =>
      (List.finRange n).foldl (fun y d1 =>
        (List.finRange n).foldl (fun y d2 =>
          addAt A y (elem pos k1) d1 (A.mul (x (elem pos k2) d2) (M k1 k2 d1 d2))) y) y) y) y

/-- `kernel_diag_diag_block` (cafes/fem/operator.hpp:95-110). -/
noncomputable def kernelDiagDiagBlock (elem : Pos d ℤ → Fin N → Pos d ℤ) (M : Fin N → Fin N → ℝ)
    (pos : Pos d ℤ) (y : NodeVec d n ℝ) : NodeVec d n ℝ :=
  (List.finRange N).foldl (fun y ie =>
    (List.finRange n).foldl (fun y c => addAt A y (elem pos ie) c (M ie ie)) y) y

/-- `kernel_off_diag_block` (cafes/fem/operator.hpp:112-138). -/
noncomputable def kernelOffDiagBlock {NP NV : ℕ} (elemP : Pos d ℤ → Fin NP → Pos d ℤ)
    (elemV : Pos d ℤ → Fin NV → Pos d ℤ) (B : Fin NP → Fin NV → Fin n → ℝ)
    (x1 : NodeVec d n ℝ) (x2 : NodeVec d 1 ℝ) (pos : Pos d ℤ)
    (y : NodeVec d n ℝ × NodeVec d 1 ℝ) : NodeVec d n ℝ × NodeVec d 1 ℝ :=
  (List.finRange NV).foldl (fun y iv =>
    (List.finRange NP).foldl (fun y ip =>
      (List.finRange n).foldl (fun y c =>
        (addAt A y.1 (elemV pos iv) c (-(A.mul (x2 (elemP pos ip) 0) (B ip iv c))),
         addAt A y.2 (elemP pos ip) 0 (A.mul (x1 (elemV pos iv) c) (B ip iv c)))) y) y) y

/-- `diag_block_mult` with `kernel_diag_block` on process `r` (cafes/fem/operator.hpp:140-156). -/
noncomputable def diagBlockMult (L : Fin d → Dir) (elem : Pos d ℤ → Fin N → Pos d ℤ) (M : Fin N → Fin N → ℝ)
    (r : Fin d → ℕ) (x y : NodeVec d n ℝ) : NodeVec d n ℝ :=
  iterate (getDMBounds L r true) (kernelDiagBlock A elem M x) y

/-- `diag_block_mult` with `kernel_tensor_block` on process `r` (cafes/fem/operator.hpp:140-156). -/
noncomputable def tensorBlockMult (L : Fin d → Dir) (elem : Pos d ℤ → Fin N → Pos d ℤ)
    (M : Fin N → Fin N → Fin n → Fin n → ℝ) (r : Fin d → ℕ) (x y : NodeVec d n ℝ) : NodeVec d n ℝ :=
  iterate (getDMBounds L r true) (kernelTensorBlock A elem M x) y

/-- `diag_diag_block_mult` on process `r` (cafes/fem/operator.hpp:158-173). -/
noncomputable def diagDiagBlockMult (L : Fin d → Dir) (elem : Pos d ℤ → Fin N → Pos d ℤ) (M : Fin N → Fin N → ℝ)
    (r : Fin d → ℕ) (y : NodeVec d n ℝ) : NodeVec d n ℝ :=
  iterate (getDMBounds L r true) (kernelDiagDiagBlock A elem M) y

/-- `off_diag_block_mult` (cafes/fem/operator.hpp:175-194). -/
noncomputable def offDiagBlockMult {NP NV : ℕ} (Lp : Fin d → Dir) (elemP : Pos d ℤ → Fin NP → Pos d ℤ)
    (elemV : Pos d ℤ → Fin NV → Pos d ℤ) (B : Fin NP → Fin NV → Fin n → ℝ) (r : Fin d → ℕ)
    (x1 : NodeVec d n ℝ) (x2 : NodeVec d 1 ℝ) (y : NodeVec d n ℝ × NodeVec d 1 ℝ) :
    NodeVec d n ℝ × NodeVec d 1 ℝ :=
  iterate (getDMBounds Lp r true) (kernelOffDiagBlock A elemP elemV B x1 x2) y

/-- The order in which the local values behind a node, given by process and local position, are added. -/
abbrev Order (d n : ℕ) := Pos d ℤ → Fin n → List ((Fin d → ℕ) × Pos d ℤ)

/-- `local_to_global(ADD_VALUES)` (cafes/petsc/vec.hpp:168-178) on a zeroed vector: the local values behind each node are
added one after the other, in the order in which they arrive. -/
noncomputable def localToGlobalAdd (ord : Order d n) (yl : (Fin d → ℕ) → NodeVec d n ℝ) : NodeVec d n ℝ :=
  fun g c => (ord g c).foldl (fun s q => A.add s (yl q.1 q.2 c)) 0

/-- `diag_block_matrix` without boundary conditions (cafes/fem/matrixFree.hpp:44-80). -/
noncomputable def blockMatrix (L : Fin d → Dir) (ord : Order d n)
    (apply : (Fin d → ℕ) → NodeVec d n ℝ → NodeVec d n ℝ → NodeVec d n ℝ)
    (x : NodeVec d n ℝ) : NodeVec d n ℝ :=
  localToGlobalAdd A ord fun r => apply r (globalToLocal L x) 0

/-- `diag_diag_block_matrix` (cafes/fem/matrixFree.hpp:124-152). -/
noncomputable def diagMatrix (ord : Order d n) (applyDiag : (Fin d → ℕ) → NodeVec d n ℝ → NodeVec d n ℝ) : NodeVec d n ℝ :=
  localToGlobalAdd A ord fun r => applyDiag r 0

/-- `stokes_matrix` without boundary conditions (cafes/fem/matrixFree.hpp:196-246). -/
noncomputable def stokesMatrix {NP NV : ℕ} (Lv Lp : Fin d → Dir) (ov : Order d n) (op : Order d 1)
    (apply : (Fin d → ℕ) → NodeVec d n ℝ → NodeVec d n ℝ → NodeVec d n ℝ)
    (elemP : Pos d ℤ → Fin NP → Pos d ℤ) (elemV : Pos d ℤ → Fin NV → Pos d ℤ) (B : Fin NP → Fin NV → Fin n → ℝ)
    (x1 : NodeVec d n ℝ) (x2 : NodeVec d 1 ℝ) : NodeVec d n ℝ × NodeVec d 1 ℝ :=
  let loc := fun r => offDiagBlockMult A Lp elemP elemV B r (globalToLocal Lv x1) (globalToLocal Lp x2)
    (apply r (globalToLocal Lv x1) 0, 0)
  (localToGlobalAdd A ov fun r => (loc r).1, localToGlobalAdd A op fun r => (loc r).2)

/-- `stokes_matrix` with `set_bc_` (cafes/fem/matrixFree.hpp:196-246): the Dirichlet entries are copied. -/
noncomputable def stokesMatrixBC {NP NV : ℕ} (Lv Lp : Fin d → Dir) (ov : Order d d) (op : Order d 1)
    (rs : List (Fin d → ℕ)) (bc : BC d ℝ)
    (apply : (Fin d → ℕ) → NodeVec d d ℝ → NodeVec d d ℝ → NodeVec d d ℝ)
    (elemP : Pos d ℤ → Fin NP → Pos d ℤ) (elemV : Pos d ℤ → Fin NV → Pos d ℤ) (B : Fin NP → Fin NV → Fin d → ℝ)
    (x1 : NodeVec d d ℝ) (x2 : NodeVec d 1 ℝ) : NodeVec d d ℝ × NodeVec d 1 ℝ :=
  let y := stokesMatrix A Lv Lp ov op apply elemP elemV B x1 x2
  (setDirichletOnVec Lv rs bc x1 y.1, y.2)

end Cafes.Rounding
