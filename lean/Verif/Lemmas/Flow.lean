/-
Derivatives of polynomials of degree two, and the algebraic form of the Stokes equations for them.
-/
import Verif.Spec.Flow
import Mathlib.Analysis.Calculus.Deriv.Add
import Mathlib.Analysis.Calculus.Deriv.Mul
import Mathlib.Analysis.Calculus.Deriv.Pow
import Mathlib.Tactic.Ring
import Mathlib.Tactic.Linarith

namespace Cafes.Spec
variable {d : ℕ}

theorem update_shift (x : Fin d → ℝ) (i : Fin d) (t : ℝ) (j : Fin d) :
    Function.update x i t j = x j + (if j = i then t - x i else 0) := by
  by_cases h : j = i
  · subst h; simp
  · simp [h]

theorem quad_update (a : ℝ) (G : Fin d → ℝ) (H : Fin d → Fin d → ℝ) (x : Fin d → ℝ) (i : Fin d)
    (t : ℝ) : quad a G H (Function.update x i t) = quad a G H x +
      (t - x i) * (G i + ∑ k, (H i k + H k i) * x k) + (t - x i) ^ 2 * H i i := by
  unfold quad
  simp only [update_shift]
  set s := t - x i
  have e1 : ∑ j, G j * (x j + if j = i then s else 0) = ∑ j, G j * x j + G i * s := by
    simp only [mul_add, Finset.sum_add_distrib, mul_ite, mul_zero, Finset.sum_ite_eq',
      Finset.mem_univ, if_true]
  have e2 : ∀ j k, H j k * ((x j + if j = i then s else 0) * (x k + if k = i then s else 0)) =
      H j k * (x j * x k) + (if k = i then H j k * x j * s else 0) +
      (if j = i then H j k * x k * s else 0) +
      (if j = i then (if k = i then H j k * (s * s) else 0) else 0) := by
    intro j k; split_ifs <;> ring
  have e3 : ∑ j, ∑ k, H j k * ((x j + if j = i then s else 0) * (x k + if k = i then s else 0)) =
      ∑ j, ∑ k, H j k * (x j * x k) + (∑ j, H j i * x j * s) + (∑ k, H i k * x k * s) +
        H i i * (s * s) := by
    simp only [e2, Finset.sum_add_distrib, Finset.sum_ite_eq', Finset.mem_univ, if_true]
    congr 1
    · congr 1
      rw [Finset.sum_comm]; simp
    · rw [Finset.sum_comm]; simp
  rw [e1, e3, ← Finset.sum_mul, ← Finset.sum_mul]
  simp only [add_mul, Finset.sum_add_distrib]
  ring

theorem pderiv_quad (a : ℝ) (G : Fin d → ℝ) (H : Fin d → Fin d → ℝ) (i : Fin d) (x : Fin d → ℝ) :
    pderiv i (quad a G H) x = G i + ∑ k, (H i k + H k i) * x k := by
  unfold pderiv
  simp only [quad_update]
  have h1 : HasDerivAt (fun t => t - x i) 1 (x i) := (hasDerivAt_id _).sub_const _
  have h2 := ((h1.mul_const (G i + ∑ k, (H i k + H k i) * x k)).const_add (quad a G H x)).add
    ((h1.pow 2).mul_const (H i i))
  exact (h2.congr_deriv (by simp)).deriv

theorem affine_eq (a : ℝ) (G : Fin d → ℝ) : affine a G = quad a G 0 := by
  funext x; simp [affine, quad]

theorem pderiv_affine (a : ℝ) (G : Fin d → ℝ) (i : Fin d) (x : Fin d → ℝ) :
    pderiv i (affine a G) x = G i := by
  rw [affine_eq, pderiv_quad]; simp

theorem pderiv2_quad (a : ℝ) (G : Fin d → ℝ) (H : Fin d → Fin d → ℝ) (i j : Fin d) (x : Fin d → ℝ) :
    pderiv j (pderiv i (quad a G H)) x = H i j + H j i := by
  have : pderiv i (quad a G H) = affine (G i) (fun k => H i k + H k i) :=
    funext fun x => pderiv_quad a G H i x
  rw [this, pderiv_affine]

/-- The Stokes equations for a quadratic velocity and an affine pressure, on the coefficients. -/
theorem stokesFlow_iff (a : Fin d → ℝ) (G : Fin d → Fin d → ℝ) (H : Fin d → Fin d → Fin d → ℝ)
    (p0 : ℝ) (γ F : Fin d → ℝ) :
    StokesFlow (fun x c => quad (a c) (G c) (H c) x) (affine p0 γ) F ↔
      ∑ i, G i i = 0 ∧ (∀ k, ∑ i, (H i i k + H i k i) = 0) ∧
      ∀ c, -(∑ j, (H c j j + H c j j)) + γ c = F c := by
  unfold StokesFlow
  have e1 : ∀ x, ∑ i, pderiv i (fun y => quad (a i) (G i) (H i) y) x =
      ∑ i, G i i + ∑ k, (∑ i, (H i i k + H i k i)) * x k := by
    intro x
    have : ∀ i, pderiv i (fun y => quad (a i) (G i) (H i) y) x =
      G i i + ∑ k, (H i i k + H i k i) * x k := fun i => pderiv_quad _ _ _ _ _
    rw [Finset.sum_congr rfl fun i _ => this i, Finset.sum_add_distrib, Finset.sum_comm]
    simp only [Finset.sum_mul]
  have e2 : ∀ x c, -(∑ j, pderiv j (pderiv j (fun y => quad (a c) (G c) (H c) y)) x) +
      pderiv c (affine p0 γ) x = -(∑ j, (H c j j + H c j j)) + γ c := by
    intro x c
    rw [pderiv_affine]
    congr 2
    exact Finset.sum_congr rfl fun j _ => pderiv2_quad _ _ _ _ _ _
  constructor
  · rintro ⟨h1, h2⟩
    have h0 := h1 0
    rw [e1] at h0
    simp only [Pi.zero_apply, mul_zero, Finset.sum_const_zero, add_zero] at h0
    refine ⟨h0, fun k => ?_, fun c => (e2 0 c).symm.trans (h2 0 c)⟩
    have hk := h1 (fun j => if j = k then 1 else 0)
    rw [e1, h0] at hk
    simpa using hk
  · rintro ⟨h0, h1, h2⟩
    refine ⟨fun x => ?_, fun x c => (e2 x c).trans (h2 c)⟩
    rw [e1, h0]
    simp [h1]

end Cafes.Spec
