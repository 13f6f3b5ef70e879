/-
Least squares: a linear map to a finite family of reals reaches the least distance to any target.
-/
import Mathlib.Analysis.InnerProductSpace.PiL2
import Mathlib.Analysis.InnerProductSpace.Projection.Basic

namespace Cafes

/-- The sum of the squares of `g + T x` has a least value. -/
theorem least_squares {V ι : Type*} [AddCommGroup V] [Module ℝ V] [Fintype ι] (T : V → ι → ℝ) (hT : IsLinearMap ℝ T)
    (g : ι → ℝ) : ∃ x, ∀ y, ∑ i, (g i + T x i) ^ 2 ≤ ∑ i, (g i + T y i) ^ 2 := by
  set L : V →ₗ[ℝ] EuclideanSpace ℝ ι := (WithLp.linearEquiv 2 ℝ (ι → ℝ)).symm.toLinearMap ∘ₗ hT.mk' T with hL
  set b : EuclideanSpace ℝ ι := WithLp.toLp 2 (-g) with hb
  have he : ∀ y, ∑ i, (g i + T y i) ^ 2 = ‖b - L y‖ ^ 2 := by
    intro y
    rw [EuclideanSpace.real_norm_sq_eq]
    refine Finset.sum_congr rfl fun i _ => ?_
    have : (b - L y) i = -g i - T y i := rfl
    rw [this]
    ring
  obtain ⟨x, hx⟩ := (LinearMap.mem_range (f := L)).1 ((LinearMap.range L).starProjection_apply_mem b)
  refine ⟨x, fun y => ?_⟩
  rw [he, he, hx]
  refine pow_le_pow_left₀ (norm_nonneg _) ?_ 2
  rw [Submodule.starProjection_minimal]
  exact ciInf_le ⟨0, by rintro _ ⟨z, rfl⟩; exact norm_nonneg _⟩ (⟨L y, LinearMap.mem_range_self L y⟩ : LinearMap.range L)

end Cafes
