/-
Specification of the finite element spaces: shape functions on a cell `[0,h]`, their gradients
(Mathlib's `deriv`) and integrals (Mathlib's interval integrals). Nothing here refers to the model.
-/
import Mathlib.MeasureTheory.Integral.IntervalIntegral.Basic
import Mathlib.Analysis.Calculus.Deriv.Basic
import Mathlib.Data.Fin.VecNotation

namespace Cafes.Spec
open intervalIntegral

/-- Linear shape function on `[0,h]`: `1 - t/h` at the left node, `t/h` at the right node. -/
noncomputable def hat (b : Fin 2) (h t : ℝ) : ℝ := if b = 0 then 1 - t / h else t / h

/-- Piecewise linear shape function of node `j` on the grid `0, h, 2h`. -/
noncomputable def hatV (j : Fin 3) (h t : ℝ) : ℝ := max 0 (1 - |t / h - j.1|)

/-- Position of corner `k` of a square in each direction: first coordinate fastest. -/
def bit2 (k : Fin 4) : Fin 2 → Fin 2 := ![⟨k.1 % 2, by omega⟩, ⟨k.1 / 2, by omega⟩]

/-- Position of corner `k` of a cube in each direction: first coordinate fastest. -/
def bit3 (k : Fin 8) : Fin 3 → Fin 2 :=
  ![⟨k.1 % 2, by omega⟩, ⟨k.1 / 2 % 2, by omega⟩, ⟨k.1 / 4, by omega⟩]

/-- Position of node `k` of a `3 x 3` patch in each direction. -/
def trit2 (k : Fin 9) : Fin 2 → Fin 3 := ![⟨k.1 % 3, by omega⟩, ⟨k.1 / 3, by omega⟩]

/-- Position of node `k` of a `3 x 3 x 3` patch in each direction. -/
def trit3 (k : Fin 27) : Fin 3 → Fin 3 :=
  ![⟨k.1 % 3, by omega⟩, ⟨k.1 / 3 % 3, by omega⟩, ⟨k.1 / 9, by omega⟩]

/-- Bilinear shape function of corner `k` of the cell `[0,h0]x[0,h1]`. -/
noncomputable def phi2 (h : Fin 2 → ℝ) (k : Fin 4) (x y : ℝ) : ℝ :=
  hat (bit2 k 0) (h 0) x * hat (bit2 k 1) (h 1) y

/-- Trilinear shape function of corner `k` of a box cell. -/
noncomputable def phi3 (h : Fin 3 → ℝ) (k : Fin 8) (x y z : ℝ) : ℝ :=
  hat (bit3 k 0) (h 0) x * hat (bit3 k 1) (h 1) y * hat (bit3 k 2) (h 2) z

/-- Velocity shape function: Q1 on the four cells of size `h` that make the cell of size `2h`. -/
noncomputable def vel2 (h : Fin 2 → ℝ) (k : Fin 9) (x y : ℝ) : ℝ :=
  hatV (trit2 k 0) (h 0) x * hatV (trit2 k 1) (h 1) y

/-- Velocity shape function in 3D. -/
noncomputable def vel3 (h : Fin 3 → ℝ) (k : Fin 27) (x y z : ℝ) : ℝ :=
  hatV (trit3 k 0) (h 0) x * hatV (trit3 k 1) (h 1) y * hatV (trit3 k 2) (h 2) z

/-- Partial derivatives of a function of two variables. -/
noncomputable def grad2 (f : ℝ → ℝ → ℝ) (x y : ℝ) : Fin 2 → ℝ :=
  ![deriv (fun s => f s y) x, deriv (fun s => f x s) y]

/-- Partial derivatives of a function of three variables. -/
noncomputable def grad3 (f : ℝ → ℝ → ℝ → ℝ) (x y z : ℝ) : Fin 3 → ℝ :=
  ![deriv (fun s => f s y z) x, deriv (fun s => f x s z) y, deriv (fun s => f x y s) z]

/-- Integral over the cell `[0,h0]x[0,h1]`. -/
noncomputable def int2 (h : Fin 2 → ℝ) (f : ℝ → ℝ → ℝ) : ℝ :=
  ∫ x in (0:ℝ)..h 0, ∫ y in (0:ℝ)..h 1, f x y

/-- Integral over the cell `[0,h0]x[0,h1]x[0,h2]`. -/
noncomputable def int3 (h : Fin 3 → ℝ) (f : ℝ → ℝ → ℝ → ℝ) : ℝ :=
  ∫ x in (0:ℝ)..h 0, ∫ y in (0:ℝ)..h 1, ∫ z in (0:ℝ)..h 2, f x y z

/-- Symmetric gradient of the vector field `phi e_a` whose scalar factor has gradient `g`:
entry `(c, d)` is `(d_c u_d + d_d u_c) / 2` with `u_d = phi` if `d = a`, else `0`. -/
noncomputable def symGrad {n : ℕ} (g : Fin n → ℝ) (a c d : Fin n) : ℝ :=
  ((if d = a then g c else 0) + (if c = a then g d else 0)) / 2

end Cafes.Spec
