/-
Specification: Stokes flows given by polynomials of degree two, in terms of Mathlib's derivative.
Nothing here refers to the model.
-/
import Mathlib.Analysis.Calculus.Deriv.Basic
import Mathlib.Algebra.BigOperators.Fin

namespace Cafes.Spec
variable {d : ℕ}

/-- Partial derivative in direction `i` of a function of `d` real variables. -/
noncomputable def pderiv (i : Fin d) (f : (Fin d → ℝ) → ℝ) (x : Fin d → ℝ) : ℝ :=
  deriv (fun t => f (Function.update x i t)) (x i)

/-- Velocity `u` and pressure `p` solve the Stokes equations with the constant force `F`:
`- Δ u + ∇ p = F` and `div u = 0`, everywhere. -/
def StokesFlow (u : (Fin d → ℝ) → Fin d → ℝ) (p : (Fin d → ℝ) → ℝ) (F : Fin d → ℝ) : Prop :=
  (∀ x, ∑ i, pderiv i (fun y => u y i) x = 0) ∧
  ∀ x c, -(∑ j, pderiv j (pderiv j (fun y => u y c)) x) + pderiv c p x = F c

/-- A polynomial of degree two: constant `a`, linear part `G`, quadratic part `H`. -/
def quad (a : ℝ) (G : Fin d → ℝ) (H : Fin d → Fin d → ℝ) (x : Fin d → ℝ) : ℝ :=
  a + ∑ j, G j * x j + ∑ j, ∑ k, H j k * (x j * x k)

/-- An affine function. -/
def affine (a : ℝ) (G : Fin d → ℝ) (x : Fin d → ℝ) : ℝ := a + ∑ j, G j * x j

/-- A Stokes flow of degree two under a constant force: the velocity components are polynomials of degree
two, component `c` without the square of its own coordinate, the pressure is affine, and nothing depends
on the coordinates of the periodic directions. Couette, Poiseuille, pipe and stagnation point flows are of
this form. -/
structure PolyFlow (per : Fin d → Bool) where
  /-- values at the origin -/
  a : Fin d → ℝ
  /-- linear part of each component -/
  G : Fin d → Fin d → ℝ
  /-- quadratic part of each component -/
  H : Fin d → Fin d → Fin d → ℝ
  /-- pressure at the origin -/
  p0 : ℝ
  /-- pressure gradient -/
  γ : Fin d → ℝ
  /-- body force -/
  F : Fin d → ℝ
  stokes : StokesFlow (fun x c => quad (a c) (G c) (H c) x) (affine p0 γ) F
  noSquare : ∀ c, H c c c = 0
  perG : ∀ i, per i = true → ∀ c, G c i = 0
  perH : ∀ i, per i = true → ∀ c k, H c i k = 0 ∧ H c k i = 0
  perγ : ∀ i, per i = true → γ i = 0

/-- The velocity of the flow. -/
def PolyFlow.vel {per : Fin d → Bool} (w : PolyFlow per) (x : Fin d → ℝ) (c : Fin d) : ℝ :=
  quad (w.a c) (w.G c) (w.H c) x

/-- The pressure of the flow. -/
def PolyFlow.pres {per : Fin d → Bool} (w : PolyFlow per) (x : Fin d → ℝ) : ℝ := affine w.p0 w.γ x

end Cafes.Spec
