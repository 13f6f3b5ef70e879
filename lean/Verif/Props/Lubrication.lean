import Verif.Props.SingNormal2D
import Verif.Props.SingNormal3D

/-!
C88: the coded singular pressure and the coded singular velocity of the normal motion satisfy the lubrication
equation `grad p = d²u/dz²` across the gap (viscosity 1).
-/

set_option linter.unusedVariables false
set_option linter.flexible false
namespace Cafes.Props
open Cafes.Sing

/-- C88 (space): at every point, the derivative of the coded pressure in each cross direction is the second derivative
along the line of centres of the velocity in that direction, on the whole support of the cut-off; the pressure
does not vary along the line of centres. -/
theorem C88_lubrication3D {p : ℝ} (hp : 0 < p) (H M a U x y z : ℝ) (hH : 0 < H) (hM : 0 < M) (ha : 0 < a) :
    (∃ (v : ℝ → ℝ) (q : ℝ), (∀ z, HasDerivAt (fun z => ux_sing_normalMvt3D ![x, y, z] H M a U p p) (v z) z) ∧
      HasDerivAt v q z ∧ HasDerivAt (fun x => p_sing_withT_normalMvt3D ![x, y, z] H M a U p p) q x) ∧
    (∃ (v : ℝ → ℝ) (q : ℝ), (∀ z, HasDerivAt (fun z => uy_sing_normalMvt3D ![x, y, z] H M a U p p) (v z) z) ∧
      HasDerivAt v q z ∧ HasDerivAt (fun y => p_sing_withT_normalMvt3D ![x, y, z] H M a U p p) q y) ∧
    (∀ z', p_sing_withT_normalMvt3D ![x, y, z'] H M a U p p = p_sing_withT_normalMvt3D ![x, y, z] H M a U p p) := by
  have hs := sq_sum_nonneg x y
  have ht : H * (x * x + y * y) + M * (x * x + y * y) + 2 * a ≠ 0 := by positivity
  have ht' : (x * x + y * y) * H + (x * x + y * y) * M + 2 * a ≠ 0 := by positivity
  have hHM : H + M ≠ 0 := by positivity
  have key : ∀ w : ℝ, HasDerivAt (fun z => w * (2 * U * (M * (x * x + y * y) + 2 * a - H * (x * x + y * y) - 4 * z) *
      (3 * dchiTrunc √(x * x + y * y) p p / (H + M) / (H * (x * x + y * y) + M * (x * x + y * y) + 2 * a) ^ 2 -
        6 * chiTrunc √(x * x + y * y) p p / (H * (x * x + y * y) + M * (x * x + y * y) + 2 * a) ^ 3)))
      (w * (-8 * U * (3 * dchiTrunc √(x * x + y * y) p p / (H + M) /
        (H * (x * x + y * y) + M * (x * x + y * y) + 2 * a) ^ 2 -
        6 * chiTrunc √(x * x + y * y) p p / (H * (x * x + y * y) + M * (x * x + y * y) + 2 * a) ^ 3))) z := by
    intro w
    apply HasDerivAt.congr_deriv
    · hd
    · ring
  refine ⟨⟨_, _, fun z => ?_, key x, ?_⟩, ⟨_, _, fun z => ?_, key y, ?_⟩, fun z' => rfl⟩
  · have h := (hasDerivAt_radG_z H M a U z (x * x + y * y) (chiTrunc √(x * x + y * y) p p)
      (dchiTrunc √(x * x + y * y) p p)).const_mul x
    exact h.congr_of_eventuallyEq (Filter.Eventually.of_forall fun z => ux_radG_all H M a U p p x y z hH hM ha)
  · have hc := hasDerivAt_chi_rad hp (fun x => sq_sum_nonneg x y) (hasDerivAt_sq_left x y)
    have hq := hasDerivAt_sq_left x y
    apply HasDerivAt.congr_deriv
    · simp only [p_sing_withT_normalMvt3D, Matrix.cons_val]
      hd
      all_goals positivity
    · generalize chiTrunc √(x * x + y * y) p p = c0
      generalize dchiTrunc √(x * x + y * y) p p = c1
      field_simp
      ring
  · have h := (hasDerivAt_radG_z H M a U z (x * x + y * y) (chiTrunc √(x * x + y * y) p p)
      (dchiTrunc √(x * x + y * y) p p)).const_mul y
    exact h.congr_of_eventuallyEq (Filter.Eventually.of_forall fun z => uy_radG_all H M a U p p x y z hH hM ha)
  · have hc := hasDerivAt_chi_rad hp (fun y => sq_sum_nonneg x y) (hasDerivAt_sq_right x y)
    have hq := hasDerivAt_sq_right x y
    apply HasDerivAt.congr_deriv
    · simp only [p_sing_withT_normalMvt3D, Matrix.cons_val]
      hd
      all_goals positivity
    · generalize chiTrunc √(x * x + y * y) p p = c0
      generalize dchiTrunc √(x * x + y * y) p p = c1
      field_simp
      ring

/-- C88 (plane, exact): the second derivative of the coded cross velocity across the gap is the derivative of
the coded pressure minus the term in the derivative of the cut-off, which the code leaves out of the velocity. So the
lubrication equation holds exactly where the cut-off is stationary (or the relative velocity is zero). -/
theorem C88_lubrication2D {p : ℝ} (hp : 0 < p) (H M a U z r : ℝ) (hH : 0 < H) (hM : 0 < M) (ha : 0 < a) :
    ∃ (v : ℝ → ℝ) (q q' χ' : ℝ), (∀ z, HasDerivAt (fun z => uz_sing_normalMvt2D ![z, r] H M a U p p) (v z) z) ∧
      HasDerivAt v q z ∧ HasDerivAt (fun r => p_sing_withT_normalMvt2D ![z, r] H M a U p p) q' r ∧
      HasDerivAt (fun r => chiTrunc r p p) χ' r ∧
      q' = q - 24 * U * χ' / ((H + M) * (2 * a + (H + M) * r ^ 2) ^ 2) ∧
      (q' = q ↔ U = 0 ∨ χ' = 0) ∧
      (∀ z', p_sing_withT_normalMvt2D ![z', r] H M a U p p = p_sing_withT_normalMvt2D ![z, r] H M a U p p) := by
  have hc0 := hasDerivAt_chi hp r
  have hr := mul_self_nonneg r
  have ht : 2 * a + M * (r * r) + H * (r * r) ≠ 0 := by positivity
  have hHM : H + M ≠ 0 := by positivity
  have hT : 2 * a + (H + M) * r ^ 2 ≠ 0 := by positivity
  have e1 : HasDerivAt (fun z => 24 * U * r * chiTrunc r p p / (2 * a + (H + M) * r ^ 2) ^ 3 *
      (H * r ^ 2 + 4 * z - M * r ^ 2 - 2 * a))
      (96 * U * r * chiTrunc r p p / (2 * a + (H + M) * r ^ 2) ^ 3) z := by
    apply HasDerivAt.congr_deriv
    · hd
    · ring
  have e2 : HasDerivAt (fun r => p_sing_withT_normalMvt2D ![z, r] H M a U p p)
      (96 * U * r * chiTrunc r p p / (2 * a + (H + M) * r ^ 2) ^ 3 -
        24 * U * (2 * r * dchiTrunc r p p) / ((H + M) * (2 * a + (H + M) * r ^ 2) ^ 2)) r := by
    apply HasDerivAt.congr_deriv
    · simp only [p_sing_withT_normalMvt2D, Matrix.cons_val]
      hd
      all_goals positivity
    · generalize chiTrunc r p p = c0
      generalize dchiTrunc r p p = c1
      field_simp
      ring
  refine ⟨_, _, _, _, fun z => ?_, e1, e2, hc0, rfl, ?_, fun z' => rfl⟩
  · apply HasDerivAt.congr_deriv
    · simp only [uz_sing_normalMvt2D, Matrix.cons_val_zero, Matrix.cons_val_one]
      hd
    · generalize chiTrunc r p p = c0
      field_simp
      ring
  · generalize 2 * r * dchiTrunc r p p = c
    rw [sub_eq_self, div_eq_zero_iff]
    have : (H + M) * (2 * a + (H + M) * r ^ 2) ^ 2 ≠ 0 := by positivity
    constructor
    · rintro (h | h)
      · rcases mul_eq_zero.1 h with h | h
        · left; linarith
        · exact Or.inr h
      · exact absurd h this
    · rintro (h | h) <;> left <;> rw [h] <;> ring

/-- The hypotheses are met by the gap of two unit balls with cut-off 1. -/
example : ∃ (v : ℝ → ℝ) (q : ℝ),
    (∀ z, HasDerivAt (fun z => ux_sing_normalMvt3D ![1 / 2, 0, z] 1 1 (1 / 10) 1 (1 / 2) (1 / 2)) (v z) z) ∧
      HasDerivAt v q 0 ∧
      HasDerivAt (fun x => p_sing_withT_normalMvt3D ![x, 0, 0] 1 1 (1 / 10) 1 (1 / 2) (1 / 2)) q (1 / 2) :=
  (C88_lubrication3D (by norm_num) 1 1 (1 / 10) 1 (1 / 2) 0 0 one_pos one_pos (by norm_num)).1

end Cafes.Props
