import Verif.Props.SingNormal3D
import Verif.Model.SingTang

/-!
C92: the tangential motion in 3D (particle/singularity/UandPTang.hpp:557-1492).
-/

set_option linter.unusedVariables false
set_option linter.flexible false
set_option linter.unusedSimpArgs false
set_option linter.unusedTactic false
set_option linter.unreachableTactic false
set_option linter.unusedSectionVars false
set_option maxRecDepth 4000
namespace Cafes.Props
open Cafes.Sing

section
variable {x y : ℝ → ℝ} {s' t p : ℝ}

theorem rad_den {H M d s : ℝ} (hH : 0 < H) (hM : 0 < M) (hd : 0 < d) (hs : 0 ≤ s) : H * s + M * s + 2 * d ≠ 0 := by
  positivity

set_option maxHeartbeats 4000000 in
theorem tang3_V0_dr (hp : 0 < p) (H M d U z : ℝ) (hH : 0 < H) (hM : 0 < M) (hd : 0 < d)
    (hs : HasDerivAt (fun t => x t * x t + y t * y t) s' t) (h0 : x t * x t + y t * y t ≠ 0) :
    HasDerivAt (fun t => V0_tang3D ![x t, y t, z] H M d U p p)
      (drV0_tang3D ![x t, y t, z] H M d U p p * (s' / (2 * √(x t * x t + y t * y t)))) t := by
  have hc0 := hasDerivAt_chi_rad hp (fun t => sq_sum_nonneg (x t) (y t)) hs
  have hr0 := rad_ne h0
  have hr2 := Real.mul_self_sqrt (sq_sum_nonneg (x t) (y t))
  have ht := rad_den hH hM hd (sq_sum_nonneg (x t) (y t))
  have hHM : H + M ≠ 0 := by positivity
  apply HasDerivAt.congr_deriv
  · simp only [V0_tang3D, Matrix.cons_val]
    hd
    exact pow_ne_zero _ ht
  · simp only [drV0_tang3D, Matrix.cons_val]
    generalize √(x t * x t + y t * y t) = r at *
    rw [← hr2] at ht ⊢
    generalize chiTrunc r p p = c0
    generalize dchiTrunc r p p = c1
    field_simp
    ring
set_option maxHeartbeats 16000000 in
theorem tang3_U0_dr (hp : 0 < p) (H M d U z : ℝ) (hH : 0 < H) (hM : 0 < M) (hd : 0 < d)
    (hs : HasDerivAt (fun t => x t * x t + y t * y t) s' t) (h0 : x t * x t + y t * y t ≠ 0) :
    HasDerivAt (fun t => U0_tang3D ![x t, y t, z] H M d U p p)
      (drU0_tang3D ![x t, y t, z] H M d U p p * (s' / (2 * √(x t * x t + y t * y t)))) t := by
  have hc0 := hasDerivAt_chi_rad hp (fun t => sq_sum_nonneg (x t) (y t)) hs
  have hc1 := hasDerivAt_dchi_rad hp (fun t => sq_sum_nonneg (x t) (y t)) hs
  have hr0 := rad_ne h0
  have hr2 := Real.mul_self_sqrt (sq_sum_nonneg (x t) (y t))
  have ht := rad_den hH hM hd (sq_sum_nonneg (x t) (y t))
  have hHM : H + M ≠ 0 := by positivity
  apply HasDerivAt.congr_deriv
  · simp only [U0_tang3D, Matrix.cons_val]
    hd
    all_goals positivity
  · simp only [drU0_tang3D, Matrix.cons_val]
    generalize √(x t * x t + y t * y t) = r at *
    rw [← hr2] at ht ⊢
    have ht' : r * r * H + M * (r * r) + 2 * d ≠ 0 := by rw [mul_comm (r * r)]; exact ht
    generalize chiTrunc r p p = c0
    generalize dchiTrunc r p p = c1
    generalize d2chiTrunc r p p = c2
    field_simp
    ring
theorem hasDerivAt_rad_sqrt (hs : HasDerivAt (fun t => x t * x t + y t * y t) s' t)
    (h0 : x t * x t + y t * y t ≠ 0) :
    HasDerivAt (fun t => √(x t * x t + y t * y t)) (s' / (2 * √(x t * x t + y t * y t))) t :=
  hs.sqrt h0

set_option maxHeartbeats 16000000 in
theorem tang3_W0_dr (hp : 0 < p) (H M d U z : ℝ) (hH : 0 < H) (hM : 0 < M) (hd : 0 < d)
    (hs : HasDerivAt (fun t => x t * x t + y t * y t) s' t) (h0 : x t * x t + y t * y t ≠ 0) :
    HasDerivAt (fun t => W0_tang3D ![x t, y t, z] H M d U p p)
      (drW0_tang3D ![x t, y t, z] H M d U p p * (s' / (2 * √(x t * x t + y t * y t)))) t := by
  have hc0 := hasDerivAt_chi_rad hp (fun t => sq_sum_nonneg (x t) (y t)) hs
  have hc1 := hasDerivAt_dchi_rad hp (fun t => sq_sum_nonneg (x t) (y t)) hs
  have hc2 := hasDerivAt_d2chi_rad hp (fun t => sq_sum_nonneg (x t) (y t)) hs
  have hsq := hasDerivAt_rad_sqrt hs h0
  have hr0 := rad_ne h0
  have hr2 := Real.mul_self_sqrt (sq_sum_nonneg (x t) (y t))
  have ht := rad_den hH hM hd (sq_sum_nonneg (x t) (y t))
  have hHM : H + M ≠ 0 := by positivity
  have ht1 : (x t * x t + y t * y t) * H + 2 * d + M * (x t * x t + y t * y t) ≠ 0 := by
    intro h; apply ht; rw [← h]; ring
  apply HasDerivAt.congr_deriv
  · simp only [W0_tang3D, Matrix.cons_val]
    hd
    all_goals exact mul_ne_zero (pow_ne_zero _ ht1) (pow_ne_zero _ ht1)
  · simp only [drW0_tang3D, Matrix.cons_val]
    generalize √(x t * x t + y t * y t) = r at *
    rw [← hr2] at ht ⊢
    have ht' : r * r * H + 2 * d + M * (r * r) ≠ 0 := by
      intro h; apply ht; rw [← h]; ring
    have ht'' : r * r * H + M * (r * r) + 2 * d ≠ 0 := by
      intro h; apply ht; rw [← h]; ring
    generalize chiTrunc r p p = c0
    generalize dchiTrunc r p p = c1
    generalize d2chiTrunc r p p = c2
    generalize d3chiTrunc r p p = c3
    field_simp
    ring
end

section
variable (H M d U l eps x y z : ℝ)

set_option maxHeartbeats 4000000 in
theorem tang3_V0_dz (hH : 0 < H) (hM : 0 < M) (hd : 0 < d) :
    HasDerivAt (fun z => V0_tang3D ![x, y, z] H M d U l eps) (dzV0_tang3D ![x, y, z] H M d U l eps) z := by
  have hr2 := sq_sum_nonneg x y
  have ht := rad_den hH hM hd hr2
  have hHM : H + M ≠ 0 := by positivity
  apply HasDerivAt.congr_deriv
  · simp only [V0_tang3D, Matrix.cons_val]
    hd
  · simp only [dzV0_tang3D, Matrix.cons_val]
    generalize √(x * x + y * y) = r at *
    generalize x * x + y * y = s at *
    generalize chiTrunc r l eps = c0
    field_simp
    ring

set_option maxHeartbeats 4000000 in
theorem tang3_U0_dz (hH : 0 < H) (hM : 0 < M) (hd : 0 < d) :
    HasDerivAt (fun z => U0_tang3D ![x, y, z] H M d U l eps) (dzU0_tang3D ![x, y, z] H M d U l eps) z := by
  have hr2 := sq_sum_nonneg x y
  have ht := rad_den hH hM hd hr2
  have hHM : H + M ≠ 0 := by positivity
  apply HasDerivAt.congr_deriv
  · simp only [U0_tang3D, Matrix.cons_val]
    hd
  · simp only [dzU0_tang3D, Matrix.cons_val]
    generalize √(x * x + y * y) = r at *
    generalize x * x + y * y = s at *
    generalize chiTrunc r l eps = c0
    generalize dchiTrunc r l eps = c1
    field_simp
    ring

set_option maxHeartbeats 4000000 in
theorem tang3_W0_dz (hH : 0 < H) (hM : 0 < M) (hd : 0 < d) :
    HasDerivAt (fun z => W0_tang3D ![x, y, z] H M d U l eps) (dzW0_tang3D ![x, y, z] H M d U l eps) z := by
  have hr2 := sq_sum_nonneg x y
  have ht := rad_den hH hM hd hr2
  have hHM : H + M ≠ 0 := by positivity
  apply HasDerivAt.congr_deriv
  · simp only [W0_tang3D, Matrix.cons_val]
    hd
  · simp only [dzW0_tang3D, Matrix.cons_val]
    generalize √(x * x + y * y) = r at *
    generalize x * x + y * y = s at *
    have ht' : s * H + 2 * d + M * s ≠ 0 := by
      intro h; apply ht; rw [← h]; ring
    have ht'' : s * H + M * s + 2 * d ≠ 0 := by
      intro h; apply ht; rw [← h]; ring
    generalize chiTrunc r l eps = c0
    generalize dchiTrunc r l eps = c1
    generalize d2chiTrunc r l eps = c2
    field_simp
    ring

set_option maxHeartbeats 4000000 in
theorem tang3_divcyl (hH : 0 < H) (hM : 0 < M) (hd : 0 < d) (h0 : x * x + y * y ≠ 0) :
    DIVCYLIND_tangMvt3D ![x, y, z] H M d U l eps = 0 := by
  have ht := rad_den hH hM hd (sq_sum_nonneg x y)
  have hr0 := rad_ne h0
  have hr2 := Real.mul_self_sqrt (sq_sum_nonneg x y)
  have hHM : H + M ≠ 0 := by positivity
  simp only [DIVCYLIND_tangMvt3D, drU0_tang3D, U0_tang3D, V0_tang3D, dzW0_tang3D, Matrix.cons_val]
  generalize √(x * x + y * y) = r at *
  rw [← hr2] at ht ⊢
  have ht' : r * r * H + 2 * d + M * (r * r) ≠ 0 := by
    intro h; apply ht; rw [← h]; ring
  have ht'' : r * r * H + M * (r * r) + 2 * d ≠ 0 := by
    intro h; apply ht; rw [← h]; ring
  generalize chiTrunc r l eps = c0
  generalize dchiTrunc r l eps = c1
  generalize d2chiTrunc r l eps = c2
  field_simp
  ring
end

section
variable (H M d U l eps x y z : ℝ)

theorem tang3_ux_off (h : x * x + y * y ≠ 0) : ux_sing_tangMvt3D ![x, y, z] H M d U l eps =
    U / 2 * ((U0_tang3D ![x, y, z] H M d U l eps * (x * x) - V0_tang3D ![x, y, z] H M d U l eps * (y * y)) /
      (x * x + y * y)) := by
  have hr := rad_ne h
  have hr2 := Real.mul_self_sqrt (sq_sum_nonneg x y)
  simp only [ux_sing_tangMvt3D, ur_sing_tangMvt3D, ut_sing_tangMvt3D, Matrix.cons_val, ne_eq, h, not_false_eq_true,
    if_true]
  generalize U0_tang3D ![x, y, z] H M d U l eps = u
  generalize V0_tang3D ![x, y, z] H M d U l eps = v
  generalize √(x * x + y * y) = r at *
  rw [← hr2] at h ⊢
  field_simp

theorem tang3_uy_off (h : x * x + y * y ≠ 0) : uy_sing_tangMvt3D ![x, y, z] H M d U l eps =
    U / 2 * ((U0_tang3D ![x, y, z] H M d U l eps + V0_tang3D ![x, y, z] H M d U l eps) * (x * y) /
      (x * x + y * y)) := by
  have hr := rad_ne h
  have hr2 := Real.mul_self_sqrt (sq_sum_nonneg x y)
  simp only [uy_sing_tangMvt3D, ur_sing_tangMvt3D, ut_sing_tangMvt3D, Matrix.cons_val, ne_eq, h, not_false_eq_true,
    if_true]
  generalize U0_tang3D ![x, y, z] H M d U l eps = u
  generalize V0_tang3D ![x, y, z] H M d U l eps = v
  generalize √(x * x + y * y) = r at *
  rw [← hr2] at h ⊢
  field_simp

theorem tang3_uz_off (h : x * x + y * y ≠ 0) : uz_sing_tangMvt3D ![x, y, z] H M d U l eps =
    U / 2 * (W0_tang3D ![x, y, z] H M d U l eps * x / √(x * x + y * y)) := by
  simp only [uz_sing_tangMvt3D, Matrix.cons_val, ne_eq, h, not_false_eq_true, if_true]
  ring

variable {p : ℝ} (hp : 0 < p) (hH : 0 < H) (hM : 0 < M) (hd : 0 < d)
include hp hH hM hd

theorem tang3_ux_dx (h : x * x + y * y ≠ 0) :
    HasDerivAt (fun x => ux_sing_tangMvt3D ![x, y, z] H M d U p p) (dxux_sing_tangMvt3D ![x, y, z] H M d U p p) x := by
  have hr := rad_ne h
  have hr2 := Real.mul_self_sqrt (sq_sum_nonneg x y)
  have hs := hasDerivAt_sq_left x y
  have hU := tang3_U0_dr (x := fun x => x) (y := fun _ => y) hp H M d U z hH hM hd hs h
  have hV := tang3_V0_dr (x := fun x => x) (y := fun _ => y) hp H M d U z hH hM hd hs h
  refine HasDerivAt.congr_of_eventuallyEq ?_ ((near_ne hs h).mono fun u hu => tang3_ux_off H M d U p p u y z hu)
  apply HasDerivAt.congr_deriv
  · hd
    all_goals assumption
  · simp only [dxux_sing_tangMvt3D, drur_sing_tangMvt3D, drut_sing_tangMvt3D, druz_sing_tangMvt3D, dtur_sing_tangMvt3D, dtut_sing_tangMvt3D, dtuz_sing_tangMvt3D, dzur_sing_tangMvt3D, dzut_sing_tangMvt3D, dzuz_sing_tangMvt3D, ur_sing_tangMvt3D, ut_sing_tangMvt3D, Matrix.cons_val, ne_eq, h, not_false_eq_true, if_true]
    clear * - hr hr2 h
    generalize U0_tang3D ![x, y, z] H M d U p p = a0 at *
    generalize drU0_tang3D ![x, y, z] H M d U p p = a1 at *
    generalize dzU0_tang3D ![x, y, z] H M d U p p = a2 at *
    generalize V0_tang3D ![x, y, z] H M d U p p = a3 at *
    generalize drV0_tang3D ![x, y, z] H M d U p p = a4 at *
    generalize dzV0_tang3D ![x, y, z] H M d U p p = a5 at *
    generalize √(x * x + y * y) = r at *
    rw [← hr2] at h ⊢
    field_simp
    try grind

theorem tang3_ux_dy (h : x * x + y * y ≠ 0) :
    HasDerivAt (fun y => ux_sing_tangMvt3D ![x, y, z] H M d U p p) (dyux_sing_tangMvt3D ![x, y, z] H M d U p p) y := by
  have hr := rad_ne h
  have hr2 := Real.mul_self_sqrt (sq_sum_nonneg x y)
  have hs := hasDerivAt_sq_right x y
  have hU := tang3_U0_dr (x := fun _ => x) (y := fun y => y) hp H M d U z hH hM hd hs h
  have hV := tang3_V0_dr (x := fun _ => x) (y := fun y => y) hp H M d U z hH hM hd hs h
  refine HasDerivAt.congr_of_eventuallyEq ?_ ((near_ne hs h).mono fun u hu => tang3_ux_off H M d U p p x u z hu)
  apply HasDerivAt.congr_deriv
  · hd
    all_goals assumption
  · simp only [dyux_sing_tangMvt3D, drur_sing_tangMvt3D, drut_sing_tangMvt3D, druz_sing_tangMvt3D, dtur_sing_tangMvt3D, dtut_sing_tangMvt3D, dtuz_sing_tangMvt3D, dzur_sing_tangMvt3D, dzut_sing_tangMvt3D, dzuz_sing_tangMvt3D, ur_sing_tangMvt3D, ut_sing_tangMvt3D, Matrix.cons_val, ne_eq, h, not_false_eq_true, if_true]
    clear * - hr hr2 h
    generalize U0_tang3D ![x, y, z] H M d U p p = a0 at *
    generalize drU0_tang3D ![x, y, z] H M d U p p = a1 at *
    generalize dzU0_tang3D ![x, y, z] H M d U p p = a2 at *
    generalize V0_tang3D ![x, y, z] H M d U p p = a3 at *
    generalize drV0_tang3D ![x, y, z] H M d U p p = a4 at *
    generalize dzV0_tang3D ![x, y, z] H M d U p p = a5 at *
    generalize √(x * x + y * y) = r at *
    rw [← hr2] at h ⊢
    field_simp
    try grind

theorem tang3_ux_dz (h : x * x + y * y ≠ 0) :
    HasDerivAt (fun z => ux_sing_tangMvt3D ![x, y, z] H M d U p p) (dzux_sing_tangMvt3D ![x, y, z] H M d U p p) z := by
  have hr := rad_ne h
  have hr2 := Real.mul_self_sqrt (sq_sum_nonneg x y)
  have hU := tang3_U0_dz H M d U p p x y z hH hM hd
  have hV := tang3_V0_dz H M d U p p x y z hH hM hd
  refine HasDerivAt.congr_of_eventuallyEq ?_ (Filter.Eventually.of_forall fun u => tang3_ux_off H M d U p p x y u h)
  apply HasDerivAt.congr_deriv
  · hd
    all_goals assumption
  · simp only [dzux_sing_tangMvt3D, drur_sing_tangMvt3D, drut_sing_tangMvt3D, druz_sing_tangMvt3D, dtur_sing_tangMvt3D, dtut_sing_tangMvt3D, dtuz_sing_tangMvt3D, dzur_sing_tangMvt3D, dzut_sing_tangMvt3D, dzuz_sing_tangMvt3D, ur_sing_tangMvt3D, ut_sing_tangMvt3D, Matrix.cons_val, ne_eq, h, not_false_eq_true, if_true]
    clear * - hr hr2 h
    generalize U0_tang3D ![x, y, z] H M d U p p = a0 at *
    generalize drU0_tang3D ![x, y, z] H M d U p p = a1 at *
    generalize dzU0_tang3D ![x, y, z] H M d U p p = a2 at *
    generalize V0_tang3D ![x, y, z] H M d U p p = a3 at *
    generalize drV0_tang3D ![x, y, z] H M d U p p = a4 at *
    generalize dzV0_tang3D ![x, y, z] H M d U p p = a5 at *
    generalize √(x * x + y * y) = r at *
    rw [← hr2] at h ⊢
    field_simp
    try grind

theorem tang3_uy_dx (h : x * x + y * y ≠ 0) :
    HasDerivAt (fun x => uy_sing_tangMvt3D ![x, y, z] H M d U p p) (dxuy_sing_tangMvt3D ![x, y, z] H M d U p p) x := by
  have hr := rad_ne h
  have hr2 := Real.mul_self_sqrt (sq_sum_nonneg x y)
  have hs := hasDerivAt_sq_left x y
  have hU := tang3_U0_dr (x := fun x => x) (y := fun _ => y) hp H M d U z hH hM hd hs h
  have hV := tang3_V0_dr (x := fun x => x) (y := fun _ => y) hp H M d U z hH hM hd hs h
  refine HasDerivAt.congr_of_eventuallyEq ?_ ((near_ne hs h).mono fun u hu => tang3_uy_off H M d U p p u y z hu)
  apply HasDerivAt.congr_deriv
  · hd
    all_goals assumption
  · simp only [dxuy_sing_tangMvt3D, drur_sing_tangMvt3D, drut_sing_tangMvt3D, druz_sing_tangMvt3D, dtur_sing_tangMvt3D, dtut_sing_tangMvt3D, dtuz_sing_tangMvt3D, dzur_sing_tangMvt3D, dzut_sing_tangMvt3D, dzuz_sing_tangMvt3D, ur_sing_tangMvt3D, ut_sing_tangMvt3D, Matrix.cons_val, ne_eq, h, not_false_eq_true, if_true]
    clear * - hr hr2 h
    generalize U0_tang3D ![x, y, z] H M d U p p = a0 at *
    generalize drU0_tang3D ![x, y, z] H M d U p p = a1 at *
    generalize dzU0_tang3D ![x, y, z] H M d U p p = a2 at *
    generalize V0_tang3D ![x, y, z] H M d U p p = a3 at *
    generalize drV0_tang3D ![x, y, z] H M d U p p = a4 at *
    generalize dzV0_tang3D ![x, y, z] H M d U p p = a5 at *
    generalize √(x * x + y * y) = r at *
    rw [← hr2] at h ⊢
    field_simp
    try grind

theorem tang3_uy_dy (h : x * x + y * y ≠ 0) :
    HasDerivAt (fun y => uy_sing_tangMvt3D ![x, y, z] H M d U p p) (dyuy_sing_tangMvt3D ![x, y, z] H M d U p p) y := by
  have hr := rad_ne h
  have hr2 := Real.mul_self_sqrt (sq_sum_nonneg x y)
  have hs := hasDerivAt_sq_right x y
  have hU := tang3_U0_dr (x := fun _ => x) (y := fun y => y) hp H M d U z hH hM hd hs h
  have hV := tang3_V0_dr (x := fun _ => x) (y := fun y => y) hp H M d U z hH hM hd hs h
  refine HasDerivAt.congr_of_eventuallyEq ?_ ((near_ne hs h).mono fun u hu => tang3_uy_off H M d U p p x u z hu)
  apply HasDerivAt.congr_deriv
  · hd
    all_goals assumption
  · simp only [dyuy_sing_tangMvt3D, drur_sing_tangMvt3D, drut_sing_tangMvt3D, druz_sing_tangMvt3D, dtur_sing_tangMvt3D, dtut_sing_tangMvt3D, dtuz_sing_tangMvt3D, dzur_sing_tangMvt3D, dzut_sing_tangMvt3D, dzuz_sing_tangMvt3D, ur_sing_tangMvt3D, ut_sing_tangMvt3D, Matrix.cons_val, ne_eq, h, not_false_eq_true, if_true]
    clear * - hr hr2 h
    generalize U0_tang3D ![x, y, z] H M d U p p = a0 at *
    generalize drU0_tang3D ![x, y, z] H M d U p p = a1 at *
    generalize dzU0_tang3D ![x, y, z] H M d U p p = a2 at *
    generalize V0_tang3D ![x, y, z] H M d U p p = a3 at *
    generalize drV0_tang3D ![x, y, z] H M d U p p = a4 at *
    generalize dzV0_tang3D ![x, y, z] H M d U p p = a5 at *
    generalize √(x * x + y * y) = r at *
    rw [← hr2] at h ⊢
    field_simp
    try grind

theorem tang3_uy_dz (h : x * x + y * y ≠ 0) :
    HasDerivAt (fun z => uy_sing_tangMvt3D ![x, y, z] H M d U p p) (dzuy_sing_tangMvt3D ![x, y, z] H M d U p p) z := by
  have hr := rad_ne h
  have hr2 := Real.mul_self_sqrt (sq_sum_nonneg x y)
  have hU := tang3_U0_dz H M d U p p x y z hH hM hd
  have hV := tang3_V0_dz H M d U p p x y z hH hM hd
  refine HasDerivAt.congr_of_eventuallyEq ?_ (Filter.Eventually.of_forall fun u => tang3_uy_off H M d U p p x y u h)
  apply HasDerivAt.congr_deriv
  · hd
    all_goals assumption
  · simp only [dzuy_sing_tangMvt3D, drur_sing_tangMvt3D, drut_sing_tangMvt3D, druz_sing_tangMvt3D, dtur_sing_tangMvt3D, dtut_sing_tangMvt3D, dtuz_sing_tangMvt3D, dzur_sing_tangMvt3D, dzut_sing_tangMvt3D, dzuz_sing_tangMvt3D, ur_sing_tangMvt3D, ut_sing_tangMvt3D, Matrix.cons_val, ne_eq, h, not_false_eq_true, if_true]
    clear * - hr hr2 h
    generalize U0_tang3D ![x, y, z] H M d U p p = a0 at *
    generalize drU0_tang3D ![x, y, z] H M d U p p = a1 at *
    generalize dzU0_tang3D ![x, y, z] H M d U p p = a2 at *
    generalize V0_tang3D ![x, y, z] H M d U p p = a3 at *
    generalize drV0_tang3D ![x, y, z] H M d U p p = a4 at *
    generalize dzV0_tang3D ![x, y, z] H M d U p p = a5 at *
    generalize √(x * x + y * y) = r at *
    rw [← hr2] at h ⊢
    field_simp
    try grind

theorem tang3_uz_dx (h : x * x + y * y ≠ 0) :
    HasDerivAt (fun x => uz_sing_tangMvt3D ![x, y, z] H M d U p p) (dxuz_sing_tangMvt3D ![x, y, z] H M d U p p) x := by
  have hr := rad_ne h
  have hr2 := Real.mul_self_sqrt (sq_sum_nonneg x y)
  have hs := hasDerivAt_sq_left x y
  have hW := tang3_W0_dr (x := fun x => x) (y := fun _ => y) hp H M d U z hH hM hd hs h
  have hq := hasDerivAt_rad_sqrt (x := fun x => x) (y := fun _ => y) hs h
  refine HasDerivAt.congr_of_eventuallyEq ?_ ((near_ne hs h).mono fun u hu => tang3_uz_off H M d U p p u y z hu)
  apply HasDerivAt.congr_deriv
  · hd
    all_goals assumption
  · simp only [dxuz_sing_tangMvt3D, drur_sing_tangMvt3D, drut_sing_tangMvt3D, druz_sing_tangMvt3D, dtur_sing_tangMvt3D, dtut_sing_tangMvt3D, dtuz_sing_tangMvt3D, dzur_sing_tangMvt3D, dzut_sing_tangMvt3D, dzuz_sing_tangMvt3D, ur_sing_tangMvt3D, ut_sing_tangMvt3D, Matrix.cons_val, ne_eq, h, not_false_eq_true, if_true]
    clear * - hr hr2 h
    generalize W0_tang3D ![x, y, z] H M d U p p = a0 at *
    generalize drW0_tang3D ![x, y, z] H M d U p p = a1 at *
    generalize dzW0_tang3D ![x, y, z] H M d U p p = a2 at *
    generalize √(x * x + y * y) = r at *
    rw [← hr2] at h ⊢
    field_simp
    try grind

theorem tang3_uz_dy (h : x * x + y * y ≠ 0) :
    HasDerivAt (fun y => uz_sing_tangMvt3D ![x, y, z] H M d U p p) (dyuz_sing_tangMvt3D ![x, y, z] H M d U p p) y := by
  have hr := rad_ne h
  have hr2 := Real.mul_self_sqrt (sq_sum_nonneg x y)
  have hs := hasDerivAt_sq_right x y
  have hW := tang3_W0_dr (x := fun _ => x) (y := fun y => y) hp H M d U z hH hM hd hs h
  have hq := hasDerivAt_rad_sqrt (x := fun _ => x) (y := fun y => y) hs h
  refine HasDerivAt.congr_of_eventuallyEq ?_ ((near_ne hs h).mono fun u hu => tang3_uz_off H M d U p p x u z hu)
  apply HasDerivAt.congr_deriv
  · hd
    all_goals assumption
  · simp only [dyuz_sing_tangMvt3D, drur_sing_tangMvt3D, drut_sing_tangMvt3D, druz_sing_tangMvt3D, dtur_sing_tangMvt3D, dtut_sing_tangMvt3D, dtuz_sing_tangMvt3D, dzur_sing_tangMvt3D, dzut_sing_tangMvt3D, dzuz_sing_tangMvt3D, ur_sing_tangMvt3D, ut_sing_tangMvt3D, Matrix.cons_val, ne_eq, h, not_false_eq_true, if_true]
    clear * - hr hr2 h
    generalize W0_tang3D ![x, y, z] H M d U p p = a0 at *
    generalize drW0_tang3D ![x, y, z] H M d U p p = a1 at *
    generalize dzW0_tang3D ![x, y, z] H M d U p p = a2 at *
    generalize √(x * x + y * y) = r at *
    rw [← hr2] at h ⊢
    field_simp
    try grind

theorem tang3_uz_dz (h : x * x + y * y ≠ 0) :
    HasDerivAt (fun z => uz_sing_tangMvt3D ![x, y, z] H M d U p p) (dzuz_sing_tangMvt3D ![x, y, z] H M d U p p) z := by
  have hr := rad_ne h
  have hr2 := Real.mul_self_sqrt (sq_sum_nonneg x y)
  have hW := tang3_W0_dz H M d U p p x y z hH hM hd
  refine HasDerivAt.congr_of_eventuallyEq ?_ (Filter.Eventually.of_forall fun u => tang3_uz_off H M d U p p x y u h)
  apply HasDerivAt.congr_deriv
  · hd
    all_goals assumption
  · simp only [dzuz_sing_tangMvt3D, drur_sing_tangMvt3D, drut_sing_tangMvt3D, druz_sing_tangMvt3D, dtur_sing_tangMvt3D, dtut_sing_tangMvt3D, dtuz_sing_tangMvt3D, dzur_sing_tangMvt3D, dzut_sing_tangMvt3D, ur_sing_tangMvt3D, ut_sing_tangMvt3D, Matrix.cons_val, ne_eq, h, not_false_eq_true, if_true]
    ring

end

end Cafes.Props
