import Verif.Props.Trunc
import Verif.Lemmas.Deriv
import Verif.Model.SingTang

/-!
C91: the planar tangential motion (particle/singularity/UandPTang.hpp:53-545). Coordinates of the contact frame:
`X 0 = z` along the line of centres, `X 1 = r` across it. The two particles are the parabolas `z = - H r²/2` and
`z = d + M r²/2`; `U` is the relative tangential velocity; `ux` is the axial component, `uz` the cross component.
-/

set_option linter.unusedVariables false
set_option linter.flexible false
set_option maxRecDepth 4000
namespace Cafes.Props
open Cafes.Sing

theorem tang2_uz_dx {p : ℝ} (hp : 0 < p) (H M d U z r : ℝ) (hH : 0 < H) (hM : 0 < M) (hd : 0 < d) :
    HasDerivAt (fun z => uz_sing_tangMvt2D ![z, r] H M d U p p)
      (dxuz_sing_tangMvt2D ![z, r] H M d U p p) z := by
  have hr := mul_self_nonneg r
  have ht : H * (r * r) + M * (r * r) + 2 * d ≠ 0 := by positivity
  have hHM : H + M ≠ 0 := by positivity
  apply HasDerivAt.congr_deriv
  · simp only [uz_sing_tangMvt2D, Matrix.cons_val_zero, Matrix.cons_val_one]
    hd
  · simp only [dxuz_sing_tangMvt2D, Matrix.cons_val_zero, Matrix.cons_val_one]
    generalize chiTrunc r p p = c0
    generalize dchiTrunc r p p = c1
    field_simp
    ring

theorem tang2_uz_dz {p : ℝ} (hp : 0 < p) (H M d U z r : ℝ) (hH : 0 < H) (hM : 0 < M) (hd : 0 < d) :
    HasDerivAt (fun r => uz_sing_tangMvt2D ![z, r] H M d U p p)
      (dzuz_sing_tangMvt2D ![z, r] H M d U p p) r := by
  have hr := mul_self_nonneg r
  have hc0 := hasDerivAt_chi hp r
  have hc1 := hasDerivAt_dchi hp r
  have hc2 := hasDerivAt_d2chi hp r
  have ht : H * (r * r) + M * (r * r) + 2 * d ≠ 0 := by positivity
  have ht' : M * (r * r) + 2 * d + r * r * H ≠ 0 := by positivity
  have hHM : H + M ≠ 0 := by positivity
  apply HasDerivAt.congr_deriv
  · simp only [uz_sing_tangMvt2D, Matrix.cons_val_zero, Matrix.cons_val_one]
    hd
    all_goals positivity
  · simp only [dzuz_sing_tangMvt2D, Matrix.cons_val_zero, Matrix.cons_val_one]
    generalize chiTrunc r p p = c0
    generalize dchiTrunc r p p = c1
    generalize d2chiTrunc r p p = c2
    generalize d3chiTrunc r p p = c3
    field_simp
    ring

theorem tang2_ux_dx {p : ℝ} (hp : 0 < p) (H M d U z r : ℝ) (hH : 0 < H) (hM : 0 < M) (hd : 0 < d) :
    HasDerivAt (fun z => ux_sing_tangMvt2D ![z, r] H M d U p p)
      (dxux_sing_tangMvt2D ![z, r] H M d U p p) z := by
  have hr := mul_self_nonneg r
  have hc0 := hasDerivAt_chi hp r
  have hc1 := hasDerivAt_dchi hp r
  have hc2 := hasDerivAt_d2chi hp r
  have ht : H * (r * r) + M * (r * r) + 2 * d ≠ 0 := by positivity
  have ht' : M * (r * r) + 2 * d + r * r * H ≠ 0 := by positivity
  have hHM : H + M ≠ 0 := by positivity
  apply HasDerivAt.congr_deriv
  · simp only [ux_sing_tangMvt2D, Matrix.cons_val_zero, Matrix.cons_val_one]
    hd
    all_goals positivity
  · simp only [dxux_sing_tangMvt2D, Matrix.cons_val_zero, Matrix.cons_val_one]
    generalize chiTrunc r p p = c0
    generalize dchiTrunc r p p = c1
    generalize d2chiTrunc r p p = c2
    generalize d3chiTrunc r p p = c3
    field_simp
    ring

set_option maxHeartbeats 4000000 in
theorem tang2_ux_dz {p : ℝ} (hp : 0 < p) (H M d U z r : ℝ) (hH : 0 < H) (hM : 0 < M) (hd : 0 < d) :
    HasDerivAt (fun r => ux_sing_tangMvt2D ![z, r] H M d U p p)
      (dzux_sing_tangMvt2D ![z, r] H M d U p p) r := by
  have hr := mul_self_nonneg r
  have hc0 := hasDerivAt_chi hp r
  have hc1 := hasDerivAt_dchi hp r
  have hc2 := hasDerivAt_d2chi hp r
  have ht : H * (r * r) + M * (r * r) + 2 * d ≠ 0 := by positivity
  have ht' : M * (r * r) + 2 * d + r * r * H ≠ 0 := by positivity
  have hHM : H + M ≠ 0 := by positivity
  apply HasDerivAt.congr_deriv
  · simp only [ux_sing_tangMvt2D, Matrix.cons_val_zero, Matrix.cons_val_one]
    hd
    all_goals positivity
  · simp only [dzux_sing_tangMvt2D, Matrix.cons_val_zero, Matrix.cons_val_one]
    generalize chiTrunc r p p = c0
    generalize dchiTrunc r p p = c1
    generalize d2chiTrunc r p p = c2
    generalize d3chiTrunc r p p = c3
    field_simp
    ring

/-- C91 (gradient): the four coded derivatives of the planar tangential field are the partial derivatives of the coded
components, at every point, cut-off zone included. -/
theorem C91_gradient2D {p : ℝ} (hp : 0 < p) (H M d U z r : ℝ) (hH : 0 < H) (hM : 0 < M) (hd : 0 < d) :
    HasDerivAt (fun z => ux_sing_tangMvt2D ![z, r] H M d U p p) (dxux_sing_tangMvt2D ![z, r] H M d U p p) z ∧
    HasDerivAt (fun r => ux_sing_tangMvt2D ![z, r] H M d U p p) (dzux_sing_tangMvt2D ![z, r] H M d U p p) r ∧
    HasDerivAt (fun z => uz_sing_tangMvt2D ![z, r] H M d U p p) (dxuz_sing_tangMvt2D ![z, r] H M d U p p) z ∧
    HasDerivAt (fun r => uz_sing_tangMvt2D ![z, r] H M d U p p) (dzuz_sing_tangMvt2D ![z, r] H M d U p p) r :=
  ⟨tang2_ux_dx hp H M d U z r hH hM hd, tang2_ux_dz hp H M d U z r hH hM hd, tang2_uz_dx hp H M d U z r hH hM hd,
    tang2_uz_dz hp H M d U z r hH hM hd⟩

theorem divcart_tang2 (X : Fin 2 → ℝ) (H M d U l eps : ℝ) : DIVCART_tangMvt2D X H M d U l eps = 0 := by
  simp only [DIVCART_tangMvt2D, dxux_sing_tangMvt2D, dzuz_sing_tangMvt2D]
  generalize chiTrunc (X 1) l eps = c0
  generalize dchiTrunc (X 1) l eps = c1
  generalize d2chiTrunc (X 1) l eps = c2
  ring

/-- C91 (incompressibility): the planar tangential field is divergence free at every point, cut-off zone included, and
the coded divergence is 0. -/
theorem C91_divergence2D {p : ℝ} (hp : 0 < p) (H M d U z r : ℝ) (hH : 0 < H) (hM : 0 < M) (hd : 0 < d) :
    (∃ a b, HasDerivAt (fun z => ux_sing_tangMvt2D ![z, r] H M d U p p) a z ∧
      HasDerivAt (fun r => uz_sing_tangMvt2D ![z, r] H M d U p p) b r ∧ a + b = 0) ∧
    ∀ X l eps, DIVCART_tangMvt2D X H M d U l eps = 0 :=
  ⟨⟨_, _, tang2_ux_dx hp H M d U z r hH hM hd, tang2_uz_dz hp H M d U z r hH hM hd, divcart_tang2 ![z, r] H M d U p p⟩,
    fun X l eps => divcart_tang2 X H M d U l eps⟩

/-- C91 (no slip): the particles slide on each other with the relative velocity `U`: on the first parabola the fluid has
the cross velocity `-U/2`, on the second `U/2`, weighted by the cut-off; no axial velocity on the first parabola, and on
the second one only the terms in the derivatives of the cut-off, which vanish where the cut-off is stationary. -/
theorem C91_noslip2D (H M d U l eps r : ℝ) (hH : 0 < H) (hM : 0 < M) (hd : 0 < d) :
    ux_sing_tangMvt2D ![-(H * r ^ 2 / 2), r] H M d U l eps = 0 ∧
    uz_sing_tangMvt2D ![-(H * r ^ 2 / 2), r] H M d U l eps = -(U / 2) * chiTrunc r l eps ∧
    uz_sing_tangMvt2D ![d + M * r ^ 2 / 2, r] H M d U l eps = U / 2 * chiTrunc r l eps ∧
    ux_sing_tangMvt2D ![d + M * r ^ 2 / 2, r] H M d U l eps = -(U * (H - M) * r / (6 * (H + M))) *
      ((6 * d + (H + M) * r ^ 2) * dchiTrunc r l eps + 2 * r ^ 2 * (2 * d + (H + M) * r ^ 2) * d2chiTrunc r l eps) := by
  have hr := mul_self_nonneg r
  have ht : H * (r * r) + M * (r * r) + 2 * d ≠ 0 := by positivity
  have ht' : M * (r * r) + 2 * d + r * r * H ≠ 0 := by positivity
  have hHM : H + M ≠ 0 := by positivity
  refine ⟨?_, ?_, ?_, ?_⟩
  · simp only [ux_sing_tangMvt2D, Matrix.cons_val_zero, Matrix.cons_val_one]
    rw [show r * r * H + 2 * -(H * r ^ 2 / 2) = 0 by ring]
    simp only [zero_mul, neg_zero, zero_div, sub_zero]
  · simp only [uz_sing_tangMvt2D, Matrix.cons_val_zero, Matrix.cons_val_one]
    generalize chiTrunc r l eps = c0
    generalize dchiTrunc r l eps = c1
    field_simp
    ring
  · simp only [uz_sing_tangMvt2D, Matrix.cons_val_zero, Matrix.cons_val_one]
    generalize chiTrunc r l eps = c0
    generalize dchiTrunc r l eps = c1
    field_simp
    ring
  · simp only [ux_sing_tangMvt2D, Matrix.cons_val_zero, Matrix.cons_val_one]
    generalize chiTrunc r l eps = c0
    generalize dchiTrunc r l eps = c1
    generalize d2chiTrunc r l eps = c2
    field_simp
    ring

/-- C91 (lubrication): the pressure does not vary across the gap and its derivative along the gap is the second
derivative across the gap of the cross velocity, cut-off zone included. -/
theorem C91_lubrication2D {p : ℝ} (hp : 0 < p) (H M d U z r : ℝ) (hH : 0 < H) (hM : 0 < M) (hd : 0 < d) :
    (∃ (v : ℝ → ℝ) (q : ℝ), (∀ z, HasDerivAt (fun z => uz_sing_tangMvt2D ![z, r] H M d U p p) (v z) z) ∧
      HasDerivAt v q z ∧ HasDerivAt (fun r => p_sing_withT_tangMvt2D ![z, r] H M d U p p) q r) ∧
    (∀ z', p_sing_withT_tangMvt2D ![z', r] H M d U p p = p_sing_withT_tangMvt2D ![z, r] H M d U p p) := by
  have hr := mul_self_nonneg r
  have hc0 := hasDerivAt_chi hp r
  have ht : H * (r * r) + M * (r * r) + 2 * d ≠ 0 := by positivity
  have hHM : H + M ≠ 0 := by positivity
  refine ⟨⟨fun z => dxuz_sing_tangMvt2D ![z, r] H M d U p p, ?_⟩, fun z' => rfl⟩
  apply Exists.intro
  refine And.intro (fun z => tang2_uz_dx hp H M d U z r hH hM hd) ?_
  apply And.intro
  rotate_left
  · simp only [p_sing_withT_tangMvt2D, Matrix.cons_val_zero, Matrix.cons_val_one]
    hd
    all_goals positivity
  · apply HasDerivAt.congr_deriv
    · simp only [dxuz_sing_tangMvt2D, Matrix.cons_val_zero, Matrix.cons_val_one]
      hd
    · generalize chiTrunc r p p = c0
      generalize dchiTrunc r p p = c1
      field_simp
      ring

/-- Two unequal particles near contact meet the hypotheses, at a point where the field does not vanish: the cross
velocity on the second particle at `r = 0` is half the relative velocity. -/
example : uz_sing_tangMvt2D ![1 / 10, 0] 2 1 (1 / 10) 3 1 1 = 3 / 2 := by
  have h := (C91_noslip2D 2 1 (1 / 10) 3 1 1 0 (by norm_num) (by norm_num) (by norm_num)).2.2.1
  have hc : chiTrunc 0 1 1 = 1 := by rw [chi_eq one_pos]; norm_num [alphaTrunc]
  rw [hc] at h
  norm_num at h
  exact h

end Cafes.Props
