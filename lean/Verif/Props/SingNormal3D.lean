import Verif.Props.Trunc
import Verif.Lemmas.Deriv
import Verif.Model.SingNormal

/-!
C60, C61, C62 for the normal motion in space (particle/singularity/UandPNormal.hpp:373-900).
Coordinates of the contact frame: `X 2 = z` along the line of centres, `X 0`, `X 1` across it.
-/

set_option linter.unusedVariables false
set_option linter.flexible false
namespace Cafes.Props
open Cafes.Sing

section
variable {p : ℝ}

theorem chi_rad (hp : 0 < p) {s : ℝ} (hs : 0 ≤ s) : chiTrunc (√s) p p =
    if s < 2 * p then 1 / 2 * (1 - alphaTrunc ((s - p) / p)) else 0 := by
  rw [chi_eq hp, Real.mul_self_sqrt hs]
theorem dchi_rad {s : ℝ} (hs : 0 ≤ s) : dchiTrunc (√s) p p =
    if s < 2 * p then - dalphaTrunc ((s - p) / p) / p / 2 else 0 := by
  rw [dchi_eq, Real.mul_self_sqrt hs]
theorem d2chi_rad {s : ℝ} (hs : 0 ≤ s) : d2chiTrunc (√s) p p =
    if s < 2 * p then - d2alphaTrunc ((s - p) / p) / p / p / 2 else 0 := by
  rw [d2chi_eq, Real.mul_self_sqrt hs]
theorem d3chi_rad {s : ℝ} (hs : 0 ≤ s) : d3chiTrunc (√s) p p =
    if s < 2 * p then - d3alphaTrunc ((s - p) / p) / p / p / p / 2 else 0 := by
  rw [d3chi_eq, Real.mul_self_sqrt hs]

/-- The cut-off as a function of a coordinate `t ↦ s t = x² + y²`. -/
theorem hasDerivAt_rad {f0 f1 : ℝ → ℝ} {g g' : ℝ → ℝ} (hg : ∀ s, HasDerivAt g (g' s) s)
    (h0 : g (2 * p) = 0) (h1 : g' (2 * p) = 0)
    (e0 : ∀ s, 0 ≤ s → f0 (√s) = if s < 2 * p then g s else 0)
    (e1 : ∀ s, 0 ≤ s → f1 (√s) = if s < 2 * p then g' s else 0)
    {s : ℝ → ℝ} {s' t : ℝ} (hs : ∀ t, 0 ≤ s t) (hd : HasDerivAt s s' t) :
    HasDerivAt (fun t => f0 (√(s t))) (s' * f1 (√(s t))) t := by
  have h := HasDerivAt.comp (h := s) t (hasDerivAt_glue hg h0 h1 (s t)) hd
  rw [e1 _ (hs t), mul_comm]
  exact h.congr_of_eventuallyEq (Filter.Eventually.of_forall fun t => e0 _ (hs t))

variable {s : ℝ → ℝ} {s' t : ℝ}

theorem hasDerivAt_chi_rad (hp : 0 < p) (hs : ∀ t, 0 ≤ s t) (hd : HasDerivAt s s' t) :
    HasDerivAt (fun t => chiTrunc (√(s t)) p p) (s' * dchiTrunc (√(s t)) p p) t :=
  hasDerivAt_rad (f0 := fun r => chiTrunc r p p) (f1 := fun r => dchiTrunc r p p)
    (g := fun s => 1 / 2 * (1 - alphaTrunc ((s - p) / p)))
    (g' := fun s => - dalphaTrunc ((s - p) / p) / p / 2)
    (fun s => (((comp_affine p (hasDerivAt_alpha _)).const_sub 1).const_mul (1 / 2)).congr_deriv
      (by ring))
    (by simp only [end_arg hp, C56_shape.2.2.1]; norm_num)
    (by simp only [end_arg hp, dalphaTrunc]; norm_num)
    (fun s h => chi_rad hp h) (fun s h => dchi_rad h) hs hd

theorem hasDerivAt_dchi_rad (hp : 0 < p) (hs : ∀ t, 0 ≤ s t) (hd : HasDerivAt s s' t) :
    HasDerivAt (fun t => dchiTrunc (√(s t)) p p) (s' * d2chiTrunc (√(s t)) p p) t :=
  hasDerivAt_rad (f0 := fun r => dchiTrunc r p p) (f1 := fun r => d2chiTrunc r p p)
    (g := fun s => - dalphaTrunc ((s - p) / p) / p / 2)
    (g' := fun s => - d2alphaTrunc ((s - p) / p) / p / p / 2)
    (fun s => (((comp_affine p (hasDerivAt_dalpha _)).neg.div_const p).div_const 2).congr_deriv
      (by ring))
    (by simp only [end_arg hp, dalphaTrunc]; norm_num)
    (by simp only [end_arg hp, d2alphaTrunc]; norm_num)
    (fun s h => dchi_rad h) (fun s h => d2chi_rad h) hs hd

theorem hasDerivAt_d2chi_rad (hp : 0 < p) (hs : ∀ t, 0 ≤ s t) (hd : HasDerivAt s s' t) :
    HasDerivAt (fun t => d2chiTrunc (√(s t)) p p) (s' * d3chiTrunc (√(s t)) p p) t :=
  hasDerivAt_rad (f0 := fun r => d2chiTrunc r p p) (f1 := fun r => d3chiTrunc r p p)
    (g := fun s => - d2alphaTrunc ((s - p) / p) / p / p / 2)
    (g' := fun s => - d3alphaTrunc ((s - p) / p) / p / p / p / 2)
    (fun s => ((((comp_affine p (hasDerivAt_d2alpha _)).neg.div_const p).div_const
      p).div_const 2).congr_deriv (by ring))
    (by simp only [end_arg hp, d2alphaTrunc]; norm_num)
    (by simp only [end_arg hp, d3alphaTrunc]; norm_num)
    (fun s h => d2chi_rad h) (fun s h => d3chi_rad h) hs hd

end

theorem hasDerivAt_sq_left (x y : ℝ) : HasDerivAt (fun x : ℝ => x * x + y * y) (2 * x) x := by
  apply HasDerivAt.congr_deriv
  · hd
  · ring
theorem hasDerivAt_sq_right (x y : ℝ) : HasDerivAt (fun y : ℝ => x * x + y * y) (2 * y) y := by
  apply HasDerivAt.congr_deriv
  · hd
  · ring
theorem sq_sum_nonneg (x y : ℝ) : 0 ≤ x * x + y * y :=
  add_nonneg (mul_self_nonneg x) (mul_self_nonneg y)

section
variable (H M a U l eps x y z : ℝ)

theorem ux_off (h : x * x + y * y ≠ 0) : ux_sing_normalMvt3D ![x, y, z] H M a U l eps =
    ur_sing_normalMvt3D ![x, y, z] H M a U l eps * x / √(x * x + y * y) := if_pos h
theorem uy_off (h : x * x + y * y ≠ 0) : uy_sing_normalMvt3D ![x, y, z] H M a U l eps =
    ur_sing_normalMvt3D ![x, y, z] H M a U l eps * y / √(x * x + y * y) := if_pos h
theorem dxux_off (h : x * x + y * y ≠ 0) : dxux_sing_normalMvt3D ![x, y, z] H M a U l eps =
    drur_sing_normalMvt3D ![x, y, z] H M a U l eps * x * x / (x * x + y * y)
      + ur_sing_normalMvt3D ![x, y, z] H M a U l eps * y * y / (x * x + y * y) / √(x * x + y * y) := if_pos h
theorem dyux_off (h : x * x + y * y ≠ 0) : dyux_sing_normalMvt3D ![x, y, z] H M a U l eps =
    drur_sing_normalMvt3D ![x, y, z] H M a U l eps * x * y / (x * x + y * y)
      - ur_sing_normalMvt3D ![x, y, z] H M a U l eps * x * y / (x * x + y * y) / √(x * x + y * y) := if_pos h
theorem dzux_off (h : x * x + y * y ≠ 0) : dzux_sing_normalMvt3D ![x, y, z] H M a U l eps =
    dzur_sing_normalMvt3D ![x, y, z] H M a U l eps * x / √(x * x + y * y) := if_pos h
theorem dxuy_off (h : x * x + y * y ≠ 0) : dxuy_sing_normalMvt3D ![x, y, z] H M a U l eps =
    drur_sing_normalMvt3D ![x, y, z] H M a U l eps * x * y / (x * x + y * y)
      - ur_sing_normalMvt3D ![x, y, z] H M a U l eps * x * y / (x * x + y * y) / √(x * x + y * y) := if_pos h
theorem dyuy_off (h : x * x + y * y ≠ 0) : dyuy_sing_normalMvt3D ![x, y, z] H M a U l eps =
    drur_sing_normalMvt3D ![x, y, z] H M a U l eps * y * y / (x * x + y * y)
      + ur_sing_normalMvt3D ![x, y, z] H M a U l eps * x * x / (x * x + y * y) / √(x * x + y * y) := if_pos h
theorem dzuy_off (h : x * x + y * y ≠ 0) : dzuy_sing_normalMvt3D ![x, y, z] H M a U l eps =
    dzur_sing_normalMvt3D ![x, y, z] H M a U l eps * y / √(x * x + y * y) := if_pos h
theorem dxuz_off (h : x * x + y * y ≠ 0) : dxuz_sing_normalMvt3D ![x, y, z] H M a U l eps =
    druz_sing_normalMvt3D ![x, y, z] H M a U l eps * x / √(x * x + y * y) := if_pos h
theorem dyuz_off (h : x * x + y * y ≠ 0) : dyuz_sing_normalMvt3D ![x, y, z] H M a U l eps =
    druz_sing_normalMvt3D ![x, y, z] H M a U l eps * y / √(x * x + y * y) := if_pos h

theorem dxuz_on (h : x * x + y * y = 0) : dxuz_sing_normalMvt3D ![x, y, z] H M a U l eps = 0 :=
  if_neg (not_not.2 h)
theorem dyuz_on (h : x * x + y * y = 0) : dyuz_sing_normalMvt3D ![x, y, z] H M a U l eps = 0 :=
  if_neg (not_not.2 h)

end


theorem hasDerivAt_inv4 {T : ℝ → ℝ} {T' x : ℝ} (h : HasDerivAt T T' x) (h0 : T x ≠ 0) :
    HasDerivAt (fun x => 1 / (T x ^ 2 * T x ^ 2)) (- (4 * T') * (1 / T x) ^ 5) x := by
  apply HasDerivAt.congr_deriv
  · hd
    exact mul_ne_zero (pow_ne_zero 2 h0) (pow_ne_zero 2 h0)
  · field_simp
    ring

theorem uz3_dx {p : ℝ} (hp : 0 < p) (H M a U x y z : ℝ) (hH : 0 < H) (hM : 0 < M)
    (ha : 0 < a) :
    HasDerivAt (fun x => uz_sing_normalMvt3D ![x, y, z] H M a U p p)
      (dxuz_sing_normalMvt3D ![x, y, z] H M a U p p) x := by
  have hc0 := hasDerivAt_chi_rad hp (fun x => sq_sum_nonneg x y) (hasDerivAt_sq_left x y)
  have hc1 := hasDerivAt_dchi_rad hp (fun x => sq_sum_nonneg x y) (hasDerivAt_sq_left x y)
  have hc2 := hasDerivAt_d2chi_rad hp (fun x => sq_sum_nonneg x y) (hasDerivAt_sq_left x y)
  have hs := hasDerivAt_sq_left x y
  have ht : H * (x * x + y * y) + M * (x * x + y * y) + 2 * a ≠ 0 := by
    have := sq_sum_nonneg x y
    positivity
  have hw := hasDerivAt_inv4 (T := fun x => H * (x * x + y * y) + M * (x * x + y * y) + 2 * a)
    (hd_add (hd_add (hd_cmul H hs) (hd_cmul M hs)) (hasDerivAt_const x (2 * a))) ht
  apply HasDerivAt.congr_deriv
  · simp only [uz_sing_normalMvt3D, Matrix.cons_val]
    hd
  · clear hc0 hc1 hc2 hs hw
    by_cases h0 : x * x + y * y = 0
    · have hx : x = 0 := by nlinarith [mul_self_nonneg x, mul_self_nonneg y]
      have hy : y = 0 := by nlinarith [mul_self_nonneg x, mul_self_nonneg y]
      rw [dxuz_on _ _ _ _ _ _ _ _ _ h0]
      subst hx hy
      simp
    · rw [dxuz_off _ _ _ _ _ _ _ _ _ h0]
      have hr : √(x * x + y * y) ≠ 0 := by
        have := sq_sum_nonneg x y
        positivity
      rw [eq_div_iff hr]
      simp only [druz_sing_normalMvt3D, Matrix.cons_val]
      generalize x * x + y * y = s at *
      generalize chiTrunc √s p p = c0
      generalize dchiTrunc √s p p = c1
      generalize d2chiTrunc √s p p = c2
      generalize d3chiTrunc √s p p = c3
      generalize √s = r at *
      have h4 : 1 / ((H * s + M * s + 2 * a) ^ 2 * (H * s + M * s + 2 * a) ^ 2) =
          (H * s + M * s + 2 * a) * (1 / (H * s + M * s + 2 * a)) ^ 5 := by
        field_simp
      have h5 : 1 / ((H * s + M * s + 2 * a) * (H * s + M * s + 2 * a) *
          ((H * s + M * s + 2 * a) * (H * s + M * s + 2 * a))) / (H * s + M * s + 2 * a) =
          (1 / (H * s + M * s + 2 * a)) ^ 5 := by
        field_simp
      rw [h4, h5]
      generalize 1 / (H * s + M * s + 2 * a) = w
      generalize 1 / (H + M) = v
      ring

/-- The radial velocity divided by the distance to the axis. -/
noncomputable def radG (H M a U z s c0 c1 : ℝ) : ℝ :=
  U * (H * s + 2 * z) * (M * s + 2 * a - 2 * z) *
    (3 * c1 / (H + M) / (H * s + M * s + 2 * a) ^ 2 - 6 * c0 / (H * s + M * s + 2 * a) ^ 3)

/-- Its derivative with respect to the squared distance. -/
noncomputable def radGs (H M a U z s c0 c1 c2 : ℝ) : ℝ :=
  U * (H * (M * s + 2 * a - 2 * z) + M * (H * s + 2 * z)) *
    (3 * c1 / (H + M) / (H * s + M * s + 2 * a) ^ 2 - 6 * c0 / (H * s + M * s + 2 * a) ^ 3) +
  U * (H * s + 2 * z) * (M * s + 2 * a - 2 * z) *
    (3 * c2 / (H + M) / (H * s + M * s + 2 * a) ^ 2 - 12 * c1 / (H * s + M * s + 2 * a) ^ 3 +
      18 * c0 * (H + M) / (H * s + M * s + 2 * a) ^ 4)

theorem ur_eq (H M a U l eps x y z : ℝ) (hH : 0 < H) (hM : 0 < M) (ha : 0 < a) :
    ur_sing_normalMvt3D ![x, y, z] H M a U l eps = √(x * x + y * y) *
      radG H M a U z (x * x + y * y) (chiTrunc √(x * x + y * y) l eps)
        (dchiTrunc √(x * x + y * y) l eps) := by
  have hs := sq_sum_nonneg x y
  simp only [ur_sing_normalMvt3D, radG, Matrix.cons_val]
  generalize x * x + y * y = s at *
  generalize chiTrunc √s l eps = c0
  generalize dchiTrunc √s l eps = c1
  generalize √s = r at *
  have ht : H * s + M * s + 2 * a ≠ 0 := by positivity
  have hHM : H + M ≠ 0 := by positivity
  rw [show -(-(H * s) - M * s - 2 * a) = H * s + M * s + 2 * a by ring]
  field_simp
  ring

theorem drur_eq (H M a U l eps x y z : ℝ) (hH : 0 < H) (hM : 0 < M) (ha : 0 < a) :
    drur_sing_normalMvt3D ![x, y, z] H M a U l eps =
      radG H M a U z (x * x + y * y) (chiTrunc √(x * x + y * y) l eps)
        (dchiTrunc √(x * x + y * y) l eps) +
      2 * (x * x + y * y) *
      radGs H M a U z (x * x + y * y) (chiTrunc √(x * x + y * y) l eps)
        (dchiTrunc √(x * x + y * y) l eps) (d2chiTrunc √(x * x + y * y) l eps) := by
  have hs := sq_sum_nonneg x y
  simp only [drur_sing_normalMvt3D, radG, radGs, Matrix.cons_val]
  generalize x * x + y * y = s at *
  generalize chiTrunc √s l eps = c0
  generalize dchiTrunc √s l eps = c1
  generalize d2chiTrunc √s l eps = c2
  have ht : H * s + M * s + 2 * a ≠ 0 := by positivity
  have hHM : H + M ≠ 0 := by positivity
  field_simp
  ring


theorem hasDerivAt_radG {p : ℝ} (hp : 0 < p) (H M a U z : ℝ) (hH : 0 < H) (hM : 0 < M)
    (ha : 0 < a) {s : ℝ → ℝ} {s' t : ℝ} (hs : ∀ t, 0 ≤ s t) (hd : HasDerivAt s s' t) :
    HasDerivAt (fun t => radG H M a U z (s t) (chiTrunc √(s t) p p) (dchiTrunc √(s t) p p))
      (s' * radGs H M a U z (s t) (chiTrunc √(s t) p p) (dchiTrunc √(s t) p p)
        (d2chiTrunc √(s t) p p)) t := by
  have hc0 := hasDerivAt_chi_rad hp hs hd
  have hc1 := hasDerivAt_dchi_rad hp hs hd
  have ht : H * s t + M * s t + 2 * a ≠ 0 := by
    have := hs t
    positivity
  have hHM : H + M ≠ 0 := by positivity
  apply HasDerivAt.congr_deriv
  · simp only [radG]
    hd
    · exact pow_ne_zero 2 ht
    · exact pow_ne_zero 3 ht
  · simp only [radGs]
    generalize chiTrunc √(s t) p p = c0
    generalize dchiTrunc √(s t) p p = c1
    generalize d2chiTrunc √(s t) p p = c2
    clear hc0 hc1 hd
    generalize s t = s at *
    simp only [Nat.cast_ofNat, Nat.reduceSub, pow_one]
    field_simp
    ring

theorem hasDerivAt_radG_z (H M a U z s c0 c1 : ℝ) :
    HasDerivAt (fun z => radG H M a U z s c0 c1)
      (2 * U * (M * s + 2 * a - H * s - 4 * z) *
    (3 * c1 / (H + M) / (H * s + M * s + 2 * a) ^ 2 - 6 * c0 / (H * s + M * s + 2 * a) ^ 3)) z := by
  apply HasDerivAt.congr_deriv
  · simp only [radG]
    hd
  · ring

theorem dzur_eq (H M a U l eps x y z : ℝ) (hH : 0 < H) (hM : 0 < M) (ha : 0 < a) :
    dzur_sing_normalMvt3D ![x, y, z] H M a U l eps = √(x * x + y * y) *
      (2 * U * (M * (x * x + y * y) + 2 * a - H * (x * x + y * y) - 4 * z) *
    (3 * dchiTrunc √(x * x + y * y) l eps / (H + M) /
        (H * (x * x + y * y) + M * (x * x + y * y) + 2 * a) ^ 2 -
      6 * chiTrunc √(x * x + y * y) l eps /
        (H * (x * x + y * y) + M * (x * x + y * y) + 2 * a) ^ 3)) := by
  have hs := sq_sum_nonneg x y
  simp only [dzur_sing_normalMvt3D, Matrix.cons_val]
  generalize x * x + y * y = s at *
  generalize chiTrunc √s l eps = c0
  generalize dchiTrunc √s l eps = c1
  have ht : H * s + M * s + 2 * a ≠ 0 := by positivity
  have hHM : H + M ≠ 0 := by positivity
  field_simp
  ring

section
variable (H M a U l eps x y z : ℝ)

theorem rad_ne {x y : ℝ} (h : x * x + y * y ≠ 0) : √(x * x + y * y) ≠ 0 := by
  have := sq_sum_nonneg x y
  positivity

/-- The radial components off the axis. -/
theorem ux_radG (hH : 0 < H) (hM : 0 < M) (ha : 0 < a) (h : x * x + y * y ≠ 0) :
    ux_sing_normalMvt3D ![x, y, z] H M a U l eps = x *
      radG H M a U z (x * x + y * y) (chiTrunc √(x * x + y * y) l eps)
        (dchiTrunc √(x * x + y * y) l eps) := by
  rw [ux_off _ _ _ _ _ _ _ _ _ h, ur_eq _ _ _ _ _ _ _ _ _ hH hM ha, div_eq_iff (rad_ne h)]
  ring

theorem dxux_radG (hH : 0 < H) (hM : 0 < M) (ha : 0 < a) (h : x * x + y * y ≠ 0) :
    dxux_sing_normalMvt3D ![x, y, z] H M a U l eps =
      radG H M a U z (x * x + y * y) (chiTrunc √(x * x + y * y) l eps)
        (dchiTrunc √(x * x + y * y) l eps) +
      x * (2 * x * radGs H M a U z (x * x + y * y) (chiTrunc √(x * x + y * y) l eps)
        (dchiTrunc √(x * x + y * y) l eps) (d2chiTrunc √(x * x + y * y) l eps)) := by
  rw [dxux_off _ _ _ _ _ _ _ _ _ h, ur_eq _ _ _ _ _ _ _ _ _ hH hM ha,
    drur_eq _ _ _ _ _ _ _ _ _ hH hM ha]
  have hr := rad_ne h
  generalize radG H M a U z (x * x + y * y) _ _ = g
  generalize radGs H M a U z (x * x + y * y) _ _ _ = g'
  generalize √(x * x + y * y) = r at *
  rw [div_div, div_add_div _ _ h (mul_ne_zero h hr), div_eq_iff (mul_ne_zero h (mul_ne_zero h hr))]
  ring

theorem dyux_radG (hH : 0 < H) (hM : 0 < M) (ha : 0 < a) (h : x * x + y * y ≠ 0) :
    dyux_sing_normalMvt3D ![x, y, z] H M a U l eps =
      x * (2 * y * radGs H M a U z (x * x + y * y) (chiTrunc √(x * x + y * y) l eps)
        (dchiTrunc √(x * x + y * y) l eps) (d2chiTrunc √(x * x + y * y) l eps)) := by
  rw [dyux_off _ _ _ _ _ _ _ _ _ h, ur_eq _ _ _ _ _ _ _ _ _ hH hM ha,
    drur_eq _ _ _ _ _ _ _ _ _ hH hM ha]
  have hr := rad_ne h
  generalize radG H M a U z (x * x + y * y) _ _ = g
  generalize radGs H M a U z (x * x + y * y) _ _ _ = g'
  generalize √(x * x + y * y) = r at *
  rw [div_div, div_sub_div _ _ h (mul_ne_zero h hr), div_eq_iff (mul_ne_zero h (mul_ne_zero h hr))]
  ring

theorem swap_sq (x y : ℝ) : y * y + x * x = x * x + y * y := add_comm _ _

theorem ur_swap : ur_sing_normalMvt3D ![y, x, z] H M a U l eps =
    ur_sing_normalMvt3D ![x, y, z] H M a U l eps := by
  simp only [ur_sing_normalMvt3D, Matrix.cons_val, swap_sq x y]
theorem drur_swap : drur_sing_normalMvt3D ![y, x, z] H M a U l eps =
    drur_sing_normalMvt3D ![x, y, z] H M a U l eps := by
  simp only [drur_sing_normalMvt3D, Matrix.cons_val, swap_sq x y]
theorem dzur_swap : dzur_sing_normalMvt3D ![y, x, z] H M a U l eps =
    dzur_sing_normalMvt3D ![x, y, z] H M a U l eps := by
  simp only [dzur_sing_normalMvt3D, Matrix.cons_val, swap_sq x y]
theorem druz_swap : druz_sing_normalMvt3D ![y, x, z] H M a U l eps =
    druz_sing_normalMvt3D ![x, y, z] H M a U l eps := by
  simp only [druz_sing_normalMvt3D, Matrix.cons_val, swap_sq x y]
theorem uz_swap : uz_sing_normalMvt3D ![y, x, z] H M a U l eps =
    uz_sing_normalMvt3D ![x, y, z] H M a U l eps := by
  simp only [uz_sing_normalMvt3D, Matrix.cons_val, swap_sq x y]

/-- The two cross directions play the same role. -/
theorem uy_swap (h : x * x + y * y ≠ 0) : uy_sing_normalMvt3D ![x, y, z] H M a U l eps =
    ux_sing_normalMvt3D ![y, x, z] H M a U l eps := by
  rw [uy_off _ _ _ _ _ _ _ _ _ h, ux_off _ _ _ _ _ _ _ _ _ (by rwa [swap_sq x y]), ur_swap,
    swap_sq x y]
theorem dyuy_swap (h : x * x + y * y ≠ 0) : dyuy_sing_normalMvt3D ![x, y, z] H M a U l eps =
    dxux_sing_normalMvt3D ![y, x, z] H M a U l eps := by
  rw [dyuy_off _ _ _ _ _ _ _ _ _ h, dxux_off _ _ _ _ _ _ _ _ _ (by rwa [swap_sq x y]), ur_swap,
    drur_swap, swap_sq x y]
theorem dxuy_swap (h : x * x + y * y ≠ 0) : dxuy_sing_normalMvt3D ![x, y, z] H M a U l eps =
    dyux_sing_normalMvt3D ![y, x, z] H M a U l eps := by
  rw [dxuy_off _ _ _ _ _ _ _ _ _ h, dyux_off _ _ _ _ _ _ _ _ _ (by rwa [swap_sq x y]), ur_swap,
    drur_swap, swap_sq x y]
  ring
theorem dzuy_swap (h : x * x + y * y ≠ 0) : dzuy_sing_normalMvt3D ![x, y, z] H M a U l eps =
    dzux_sing_normalMvt3D ![y, x, z] H M a U l eps := by
  rw [dzuy_off _ _ _ _ _ _ _ _ _ h, dzux_off _ _ _ _ _ _ _ _ _ (by rwa [swap_sq x y]), dzur_swap,
    swap_sq x y]
theorem dyuz_swap : dyuz_sing_normalMvt3D ![x, y, z] H M a U l eps =
    dxuz_sing_normalMvt3D ![y, x, z] H M a U l eps := by
  by_cases h : x * x + y * y = 0
  · rw [dyuz_on _ _ _ _ _ _ _ _ _ h, dxuz_on _ _ _ _ _ _ _ _ _ (by rwa [swap_sq x y])]
  · rw [dyuz_off _ _ _ _ _ _ _ _ _ h, dxuz_off _ _ _ _ _ _ _ _ _ (by rwa [swap_sq x y]),
      druz_swap, swap_sq x y]

end

theorem near_ne {s : ℝ → ℝ} {s' t : ℝ} (hd : HasDerivAt s s' t) (h : s t ≠ 0) :
    ∀ᶠ u in nhds t, s u ≠ 0 := hd.continuousAt.eventually_ne h

section
variable {p : ℝ} (hp : 0 < p) (H M a U x y z : ℝ) (hH : 0 < H) (hM : 0 < M) (ha : 0 < a)
include hp hH hM ha

theorem ux3_dx (h : x * x + y * y ≠ 0) :
    HasDerivAt (fun x => ux_sing_normalMvt3D ![x, y, z] H M a U p p)
      (dxux_sing_normalMvt3D ![x, y, z] H M a U p p) x := by
  have hg := hasDerivAt_radG hp H M a U z hH hM ha (fun x => sq_sum_nonneg x y)
    (hasDerivAt_sq_left x y)
  rw [dxux_radG _ _ _ _ _ _ _ _ _ hH hM ha h]
  refine ((hd_mul (hasDerivAt_id' x) hg).congr_of_eventuallyEq ?_).congr_deriv (by ring)
  filter_upwards [near_ne (hasDerivAt_sq_left x y) h] with u hu
  exact ux_radG _ _ _ _ _ _ _ _ _ hH hM ha hu

theorem ux3_dy (h : x * x + y * y ≠ 0) :
    HasDerivAt (fun y => ux_sing_normalMvt3D ![x, y, z] H M a U p p)
      (dyux_sing_normalMvt3D ![x, y, z] H M a U p p) y := by
  have hg := hasDerivAt_radG hp H M a U z hH hM ha (fun y => sq_sum_nonneg x y)
    (hasDerivAt_sq_right x y)
  rw [dyux_radG _ _ _ _ _ _ _ _ _ hH hM ha h]
  refine (hd_cmul x hg).congr_of_eventuallyEq ?_
  filter_upwards [near_ne (hasDerivAt_sq_right x y) h] with u hu
  exact ux_radG _ _ _ _ _ _ _ _ _ hH hM ha hu

omit hp in
theorem ux3_dz (h : x * x + y * y ≠ 0) :
    HasDerivAt (fun z => ux_sing_normalMvt3D ![x, y, z] H M a U p p)
      (dzux_sing_normalMvt3D ![x, y, z] H M a U p p) z := by
  have hr := rad_ne h
  rw [dzux_off _ _ _ _ _ _ _ _ _ h, dzur_eq _ _ _ _ _ _ _ _ _ hH hM ha]
  refine ((hd_cmul x (hasDerivAt_radG_z H M a U z _ _ _)).congr_of_eventuallyEq
    (Filter.Eventually.of_forall fun u => ux_radG _ _ _ _ _ _ _ _ _ hH hM ha h)).congr_deriv ?_
  rw [eq_div_iff hr]
  ring

omit hp in
theorem uz3_dz :
    HasDerivAt (fun z => uz_sing_normalMvt3D ![x, y, z] H M a U p p)
      (dzuz_sing_normalMvt3D ![x, y, z] H M a U p p) z := by
  apply HasDerivAt.congr_deriv
  · simp only [uz_sing_normalMvt3D, Matrix.cons_val]
    hd
  · simp only [dzuz_sing_normalMvt3D, Matrix.cons_val]
    generalize x * x + y * y = s at *
    generalize 1 / (H + M) = v
    generalize 1 / ((H * s + M * s + 2 * a) ^ 2 * (H * s + M * s + 2 * a) ^ 2) = w
    ring

/-- C60 (normal motion in space): off the axis, the nine coded derivatives are the partial
derivatives of the three coded components. -/
theorem C60_normal3D_off_axis (h : x ≠ 0 ∨ y ≠ 0) :
    (HasDerivAt (fun x => ux_sing_normalMvt3D ![x, y, z] H M a U p p)
      (dxux_sing_normalMvt3D ![x, y, z] H M a U p p) x ∧
    HasDerivAt (fun y => ux_sing_normalMvt3D ![x, y, z] H M a U p p)
      (dyux_sing_normalMvt3D ![x, y, z] H M a U p p) y ∧
    HasDerivAt (fun z => ux_sing_normalMvt3D ![x, y, z] H M a U p p)
      (dzux_sing_normalMvt3D ![x, y, z] H M a U p p) z) ∧
    (HasDerivAt (fun x => uy_sing_normalMvt3D ![x, y, z] H M a U p p)
      (dxuy_sing_normalMvt3D ![x, y, z] H M a U p p) x ∧
    HasDerivAt (fun y => uy_sing_normalMvt3D ![x, y, z] H M a U p p)
      (dyuy_sing_normalMvt3D ![x, y, z] H M a U p p) y ∧
    HasDerivAt (fun z => uy_sing_normalMvt3D ![x, y, z] H M a U p p)
      (dzuy_sing_normalMvt3D ![x, y, z] H M a U p p) z) ∧
    (HasDerivAt (fun x => uz_sing_normalMvt3D ![x, y, z] H M a U p p)
      (dxuz_sing_normalMvt3D ![x, y, z] H M a U p p) x ∧
    HasDerivAt (fun y => uz_sing_normalMvt3D ![x, y, z] H M a U p p)
      (dyuz_sing_normalMvt3D ![x, y, z] H M a U p p) y ∧
    HasDerivAt (fun z => uz_sing_normalMvt3D ![x, y, z] H M a U p p)
      (dzuz_sing_normalMvt3D ![x, y, z] H M a U p p) z) := by
  have h0 : x * x + y * y ≠ 0 := by
    intro e
    have hx : x = 0 := by nlinarith [mul_self_nonneg x, mul_self_nonneg y]
    have hy : y = 0 := by nlinarith [mul_self_nonneg x, mul_self_nonneg y]
    tauto
  have h0' : y * y + x * x ≠ 0 := by rwa [swap_sq x y]
  refine ⟨⟨ux3_dx hp H M a U x y z hH hM ha h0, ux3_dy hp H M a U x y z hH hM ha h0,
    ux3_dz H M a U x y z hH hM ha h0⟩, ⟨?_, ?_, ?_⟩, ⟨uz3_dx hp H M a U x y z hH hM ha, ?_,
    uz3_dz H M a U x y z hH hM ha⟩⟩
  · rw [dxuy_swap _ _ _ _ _ _ _ _ _ h0]
    refine (ux3_dy hp H M a U y x z hH hM ha h0').congr_of_eventuallyEq ?_
    filter_upwards [near_ne (hasDerivAt_sq_left x y) h0] with u hu
    exact uy_swap _ _ _ _ _ _ _ _ _ hu
  · rw [dyuy_swap _ _ _ _ _ _ _ _ _ h0]
    refine (ux3_dx hp H M a U y x z hH hM ha h0').congr_of_eventuallyEq ?_
    filter_upwards [near_ne (hasDerivAt_sq_right x y) h0] with u hu
    exact uy_swap _ _ _ _ _ _ _ _ _ hu
  · rw [dzuy_swap _ _ _ _ _ _ _ _ _ h0]
    refine (ux3_dz H M a U y x z hH hM ha h0').congr_of_eventuallyEq ?_
    exact Filter.Eventually.of_forall fun u => uy_swap _ _ _ _ _ _ _ _ _ h0
  · rw [dyuz_swap]
    refine (uz3_dx hp H M a U y x z hH hM ha).congr_of_eventuallyEq ?_
    exact Filter.Eventually.of_forall fun u => (uz_swap _ _ _ _ _ _ _ _ _).symm

/-- C60 on the axis: the derivatives of the axial component are right there too. -/
theorem C60_normal3D_axial :
    HasDerivAt (fun x => uz_sing_normalMvt3D ![x, y, z] H M a U p p)
      (dxuz_sing_normalMvt3D ![x, y, z] H M a U p p) x ∧
    HasDerivAt (fun y => uz_sing_normalMvt3D ![x, y, z] H M a U p p)
      (dyuz_sing_normalMvt3D ![x, y, z] H M a U p p) y ∧
    HasDerivAt (fun z => uz_sing_normalMvt3D ![x, y, z] H M a U p p)
      (dzuz_sing_normalMvt3D ![x, y, z] H M a U p p) z := by
  refine ⟨uz3_dx hp H M a U x y z hH hM ha, ?_, uz3_dz H M a U x y z hH hM ha⟩
  rw [dyuz_swap]
  refine (uz3_dx hp H M a U y x z hH hM ha).congr_of_eventuallyEq ?_
  exact Filter.Eventually.of_forall fun u => (uz_swap _ _ _ _ _ _ _ _ _).symm

end


/-- Incompressibility in terms of the radial profile. -/
theorem dzuz_eq (H M a U l eps x y z : ℝ) (hH : 0 < H) (hM : 0 < M) (ha : 0 < a) :
    dzuz_sing_normalMvt3D ![x, y, z] H M a U l eps =
      -(2 * radG H M a U z (x * x + y * y) (chiTrunc √(x * x + y * y) l eps)
        (dchiTrunc √(x * x + y * y) l eps) +
      2 * (x * x + y * y) *
      radGs H M a U z (x * x + y * y) (chiTrunc √(x * x + y * y) l eps)
        (dchiTrunc √(x * x + y * y) l eps) (d2chiTrunc √(x * x + y * y) l eps)) := by
  have hs := sq_sum_nonneg x y
  simp only [dzuz_sing_normalMvt3D, radG, radGs, Matrix.cons_val]
  generalize x * x + y * y = s at *
  generalize chiTrunc √s l eps = c0
  generalize dchiTrunc √s l eps = c1
  generalize d2chiTrunc √s l eps = c2
  have ht : H * s + M * s + 2 * a ≠ 0 := by positivity
  have hHM : H + M ≠ 0 := by positivity
  field_simp
  ring

theorem ux_radG_all (H M a U l eps x y z : ℝ) (hH : 0 < H) (hM : 0 < M) (ha : 0 < a) :
    ux_sing_normalMvt3D ![x, y, z] H M a U l eps = x *
      radG H M a U z (x * x + y * y) (chiTrunc √(x * x + y * y) l eps)
        (dchiTrunc √(x * x + y * y) l eps) := by
  by_cases h : x * x + y * y = 0
  · have hx : x = 0 := by nlinarith [mul_self_nonneg x, mul_self_nonneg y]
    have e : ux_sing_normalMvt3D ![x, y, z] H M a U l eps =
        ur_sing_normalMvt3D ![x, y, z] H M a U l eps := if_neg (not_not.2 h)
    rw [e, ur_eq _ _ _ _ _ _ _ _ _ hH hM ha, h, hx]
    simp
  · exact ux_radG _ _ _ _ _ _ _ _ _ hH hM ha h

theorem uy_radG_all (H M a U l eps x y z : ℝ) (hH : 0 < H) (hM : 0 < M) (ha : 0 < a) :
    uy_sing_normalMvt3D ![x, y, z] H M a U l eps = y *
      radG H M a U z (x * x + y * y) (chiTrunc √(x * x + y * y) l eps)
        (dchiTrunc √(x * x + y * y) l eps) := by
  by_cases h : x * x + y * y = 0
  · have hy : y = 0 := by nlinarith [mul_self_nonneg x, mul_self_nonneg y]
    have e : uy_sing_normalMvt3D ![x, y, z] H M a U l eps = 0 := if_neg (not_not.2 h)
    rw [e, hy]
    simp
  · rw [uy_swap _ _ _ _ _ _ _ _ _ h,
      ux_radG _ _ _ _ _ _ _ _ _ hH hM ha (by rwa [swap_sq x y]), swap_sq x y]

/-- C61 (normal motion in space): the coded Cartesian and cylindrical divergences vanish off the
axis. -/
theorem C61_normal3D_off_axis (H M a U l eps x y z : ℝ) (hH : 0 < H) (hM : 0 < M) (ha : 0 < a)
    (h : x ≠ 0 ∨ y ≠ 0) :
    DIVCART_normalMvt3D ![x, y, z] H M a U l eps = 0 ∧
    DIVCYLIND_normalMvt3D ![x, y, z] H M a U l eps = 0 := by
  have h0 : x * x + y * y ≠ 0 := by
    intro e
    have hx : x = 0 := by nlinarith [mul_self_nonneg x, mul_self_nonneg y]
    have hy : y = 0 := by nlinarith [mul_self_nonneg x, mul_self_nonneg y]
    tauto
  have h0' : y * y + x * x ≠ 0 := by rwa [swap_sq x y]
  constructor
  · simp only [DIVCART_normalMvt3D]
    rw [dyuy_swap _ _ _ _ _ _ _ _ _ h0, dxux_radG _ _ _ _ _ _ _ _ _ hH hM ha h0,
      dxux_radG _ _ _ _ _ _ _ _ _ hH hM ha h0', dzuz_eq _ _ _ _ _ _ _ _ _ hH hM ha, swap_sq x y]
    ring
  · have e : DIVCYLIND_normalMvt3D ![x, y, z] H M a U l eps =
        drur_sing_normalMvt3D ![x, y, z] H M a U l eps +
        ur_sing_normalMvt3D ![x, y, z] H M a U l eps / √(x * x + y * y) +
        dzuz_sing_normalMvt3D ![x, y, z] H M a U l eps := rfl
    rw [e, drur_eq _ _ _ _ _ _ _ _ _ hH hM ha, ur_eq _ _ _ _ _ _ _ _ _ hH hM ha,
      dzuz_eq _ _ _ _ _ _ _ _ _ hH hM ha, mul_div_cancel_left₀ _ (rad_ne h0)]
    ring

/-- C61 (normal motion in space): the velocity field itself is divergence free at every point,
including the axis and the boundary of the cut-off region. -/
theorem C61_normal3D_velocity {p : ℝ} (hp : 0 < p) (H M a U x y z : ℝ) (hH : 0 < H) (hM : 0 < M)
    (ha : 0 < a) : ∃ dx dy dz : ℝ,
    HasDerivAt (fun x => ux_sing_normalMvt3D ![x, y, z] H M a U p p) dx x ∧
    HasDerivAt (fun y => uy_sing_normalMvt3D ![x, y, z] H M a U p p) dy y ∧
    HasDerivAt (fun z => uz_sing_normalMvt3D ![x, y, z] H M a U p p) dz z ∧
    dx + dy + dz = 0 := by
  have hgx := hasDerivAt_radG hp H M a U z hH hM ha (fun x => sq_sum_nonneg x y)
    (hasDerivAt_sq_left x y)
  have hgy := hasDerivAt_radG hp H M a U z hH hM ha (fun y => sq_sum_nonneg x y)
    (hasDerivAt_sq_right x y)
  refine ⟨_, _, _, (hd_mul (hasDerivAt_id' x) hgx).congr_of_eventuallyEq
    (Filter.Eventually.of_forall fun u => ux_radG_all _ _ _ _ _ _ _ _ _ hH hM ha),
    (hd_mul (hasDerivAt_id' y) hgy).congr_of_eventuallyEq
    (Filter.Eventually.of_forall fun u => uy_radG_all _ _ _ _ _ _ _ _ _ hH hM ha),
    uz3_dz H M a U x y z hH hM ha, ?_⟩
  rw [dzuz_eq _ _ _ _ _ _ _ _ _ hH hM ha]
  ring

theorem axis_dzuz : dzuz_sing_normalMvt3D ![0, 0, 1 / 2] 1 1 1 1 1 1 = 3 / 2 := by
  rw [dzuz_eq _ _ _ _ _ _ _ _ _ one_pos one_pos one_pos, chi_rad one_pos (by norm_num),
    dchi_rad (by norm_num)]
  norm_num [radG, alphaTrunc, dalphaTrunc]

/-- C60 and C61 fail on the axis in space: the coded `dxux` and `dyuy` are set to 0 there, while the
field has non zero cross derivatives, and the coded divergence is not zero. -/
theorem C61_normal3D_axis_refuted :
    (¬ ∀ p H M a U x y z : ℝ, 0 < p → 0 < H → 0 < M → 0 < a →
      DIVCART_normalMvt3D ![x, y, z] H M a U p p = 0) := by
  intro h
  have := h 1 1 1 1 1 0 0 (1 / 2) one_pos one_pos one_pos one_pos
  have e1 : dxux_sing_normalMvt3D ![0, 0, 1 / 2] 1 1 1 1 1 1 = 0 :=
    if_neg (not_not.2 (by norm_num))
  have e2 : dyuy_sing_normalMvt3D ![0, 0, 1 / 2] 1 1 1 1 1 1 = 0 :=
    if_neg (not_not.2 (by norm_num))
  simp only [DIVCART_normalMvt3D] at this
  rw [e1, e2, axis_dzuz] at this
  norm_num at this

theorem C60_normal3D_axis_refuted :
    (¬ ∀ p H M a U x y z : ℝ, 0 < p → 0 < H → 0 < M → 0 < a →
      HasDerivAt (fun x => ux_sing_normalMvt3D ![x, y, z] H M a U p p)
        (dxux_sing_normalMvt3D ![x, y, z] H M a U p p) x) := by
  intro h
  have := h 1 1 1 1 1 0 0 (1 / 2) one_pos one_pos one_pos one_pos
  have e1 : dxux_sing_normalMvt3D ![0, 0, 1 / 2] 1 1 1 1 1 1 = 0 :=
    if_neg (not_not.2 (by norm_num))
  have hgx := hasDerivAt_radG one_pos 1 1 1 1 (1 / 2) one_pos one_pos one_pos
    (fun x => sq_sum_nonneg x 0) (hasDerivAt_sq_left 0 0)
  have h2 := (hd_mul (hasDerivAt_id' 0) hgx).congr_of_eventuallyEq
    (Filter.Eventually.of_forall fun u =>
      ux_radG_all _ _ _ _ _ _ _ _ _ one_pos one_pos one_pos)
  have h3 := this.unique h2
  rw [e1, chi_rad one_pos (by norm_num), dchi_rad (by norm_num)] at h3
  norm_num [radG, alphaTrunc, dalphaTrunc] at h3

/-- C60, C61 (normal motion in space, on the axis, exact): all the coded cross derivatives are 0 on the
axis, while `∂x ux = ∂y uy = -3 U z (a - z) / a³` there and the four other ones are 0; the coded
divergence is `6 U z (a - z) / a³`. So the coded tensor is right on the axis if and only if
`U z (a - z) = 0`. -/
theorem C60_normal3D_axis {p : ℝ} (hp : 0 < p) (H M a U z : ℝ) (hH : 0 < H) (hM : 0 < M)
    (ha : 0 < a) :
    (dxux_sing_normalMvt3D ![0, 0, z] H M a U p p = 0 ∧
     dyuy_sing_normalMvt3D ![0, 0, z] H M a U p p = 0 ∧
     HasDerivAt (fun x => ux_sing_normalMvt3D ![x, 0, z] H M a U p p) (-3 * U * z * (a - z) / a ^ 3) 0 ∧
     HasDerivAt (fun y => uy_sing_normalMvt3D ![0, y, z] H M a U p p) (-3 * U * z * (a - z) / a ^ 3) 0) ∧
    (HasDerivAt (fun y => ux_sing_normalMvt3D ![0, y, z] H M a U p p)
      (dyux_sing_normalMvt3D ![0, 0, z] H M a U p p) 0 ∧
     HasDerivAt (fun z => ux_sing_normalMvt3D ![0, 0, z] H M a U p p)
      (dzux_sing_normalMvt3D ![0, 0, z] H M a U p p) z ∧
     HasDerivAt (fun x => uy_sing_normalMvt3D ![x, 0, z] H M a U p p)
      (dxuy_sing_normalMvt3D ![0, 0, z] H M a U p p) 0 ∧
     HasDerivAt (fun z => uy_sing_normalMvt3D ![0, 0, z] H M a U p p)
      (dzuy_sing_normalMvt3D ![0, 0, z] H M a U p p) z) ∧
    DIVCART_normalMvt3D ![0, 0, z] H M a U p p = 6 * U * z * (a - z) / a ^ 3 := by
  have e1 : dxux_sing_normalMvt3D ![0, 0, z] H M a U p p = 0 := if_neg (not_not.2 (by norm_num))
  have e2 : dyuy_sing_normalMvt3D ![0, 0, z] H M a U p p = 0 := if_neg (not_not.2 (by norm_num))
  have e3 : dyux_sing_normalMvt3D ![0, 0, z] H M a U p p = 0 := if_neg (not_not.2 (by norm_num))
  have e4 : dxuy_sing_normalMvt3D ![0, 0, z] H M a U p p = 0 := if_neg (not_not.2 (by norm_num))
  have e5 : dzuy_sing_normalMvt3D ![0, 0, z] H M a U p p = 0 := if_neg (not_not.2 (by norm_num))
  have e6 : dzux_sing_normalMvt3D ![0, 0, z] H M a U p p = 0 := by
    have : dzux_sing_normalMvt3D ![0, 0, z] H M a U p p =
        dzur_sing_normalMvt3D ![0, 0, z] H M a U p p := if_neg (not_not.2 (by norm_num))
    rw [this, dzur_eq _ _ _ _ _ _ _ _ _ hH hM ha]
    norm_num
  have hx0 : ∀ y z, ux_sing_normalMvt3D ![0, y, z] H M a U p p = 0 := fun y z => by
    rw [ux_radG_all _ _ _ _ _ _ _ _ _ hH hM ha, zero_mul]
  have hy0 : ∀ x z, uy_sing_normalMvt3D ![x, 0, z] H M a U p p = 0 := fun y z => by
    rw [uy_radG_all _ _ _ _ _ _ _ _ _ hH hM ha, zero_mul]
  have hc0 : chiTrunc √((0 : ℝ) * 0 + 0 * 0) p p = 1 := by
    rw [chi_rad hp (by norm_num), if_pos (by simpa using hp),
      show ((0 : ℝ) * 0 + 0 * 0 - p) / p = -1 by field_simp; ring]
    norm_num [alphaTrunc]
  have hc1 : dchiTrunc √((0 : ℝ) * 0 + 0 * 0) p p = 0 := by
    rw [dchi_rad (by norm_num), if_pos (by simpa using hp),
      show ((0 : ℝ) * 0 + 0 * 0 - p) / p = -1 by field_simp; ring]
    norm_num [dalphaTrunc]
  have hHM : H + M ≠ 0 := by positivity
  have hg : radG H M a U z ((0 : ℝ) * 0 + 0 * 0) (chiTrunc √((0 : ℝ) * 0 + 0 * 0) p p)
      (dchiTrunc √((0 : ℝ) * 0 + 0 * 0) p p) = -3 * U * z * (a - z) / a ^ 3 := by
    rw [hc0, hc1]
    simp only [radG]
    field_simp
    ring
  have hgx := hasDerivAt_radG hp H M a U z hH hM ha (fun x => sq_sum_nonneg x 0)
    (hasDerivAt_sq_left 0 0)
  have hgy := hasDerivAt_radG hp H M a U z hH hM ha (fun y => sq_sum_nonneg 0 y)
    (hasDerivAt_sq_right 0 0)
  refine ⟨⟨e1, e2, ?_, ?_⟩, ⟨?_, ?_, ?_, ?_⟩, ?_⟩
  · refine HasDerivAt.congr_deriv ((hd_mul (hasDerivAt_id' 0) hgx).congr_of_eventuallyEq
      (Filter.Eventually.of_forall fun u => ux_radG_all _ _ _ _ _ _ _ _ _ hH hM ha)) ?_
    rw [hg]; ring
  · refine HasDerivAt.congr_deriv ((hd_mul (hasDerivAt_id' 0) hgy).congr_of_eventuallyEq
      (Filter.Eventually.of_forall fun u => uy_radG_all _ _ _ _ _ _ _ _ _ hH hM ha)) ?_
    rw [hg]; ring
  · rw [e3]; simp only [hx0]; exact hasDerivAt_const _ _
  · rw [e6]; simp only [hx0]; exact hasDerivAt_const _ _
  · rw [e4]; simp only [hy0]; exact hasDerivAt_const _ _
  · rw [e5]; simp only [hy0]; exact hasDerivAt_const _ _
  · simp only [DIVCART_normalMvt3D]
    rw [e1, e2, dzuz_eq _ _ _ _ _ _ _ _ _ hH hM ha, hg]
    ring

/-- C62 (normal motion in space): on the paraboloid of the first particle the axial velocity is minus
half the relative velocity, weighted by the cut-off; the cross velocity vanishes on both
paraboloids. -/
theorem C62_normal3D_first (H M a U l eps x y : ℝ) (hH : 0 < H) (hM : 0 < M) (ha : 0 < a) :
    uz_sing_normalMvt3D ![x, y, -(H * (x * x + y * y) / 2)] H M a U l eps =
      - (U / 2) * chiTrunc √(x * x + y * y) l eps ∧
    (∀ z, z = -(H * (x * x + y * y) / 2) ∨ z = a + M * (x * x + y * y) / 2 →
      ux_sing_normalMvt3D ![x, y, z] H M a U l eps = 0 ∧
      uy_sing_normalMvt3D ![x, y, z] H M a U l eps = 0) := by
  have hs := sq_sum_nonneg x y
  constructor
  · simp only [uz_sing_normalMvt3D, Matrix.cons_val]
    generalize x * x + y * y = s at *
    generalize chiTrunc √s l eps = c0
    generalize dchiTrunc √s l eps = c1
    generalize d2chiTrunc √s l eps = c2
    have ht : H * s + M * s + 2 * a ≠ 0 := by positivity
    have hHM : H + M ≠ 0 := by positivity
    field_simp
    ring
  · intro z hz
    rw [ux_radG_all _ _ _ _ _ _ _ _ _ hH hM ha, uy_radG_all _ _ _ _ _ _ _ _ _ hH hM ha]
    have : (H * (x * x + y * y) + 2 * z) * (M * (x * x + y * y) + 2 * a - 2 * z) = 0 := by
      rcases hz with rfl | rfl <;> ring
    simp only [radG]
    constructor
    · linear_combination (x * U * (3 * dchiTrunc √(x * x + y * y) l eps / (H + M) /
        (H * (x * x + y * y) + M * (x * x + y * y) + 2 * a) ^ 2 -
        6 * chiTrunc √(x * x + y * y) l eps /
        (H * (x * x + y * y) + M * (x * x + y * y) + 2 * a) ^ 3)) * this
    · linear_combination (y * U * (3 * dchiTrunc √(x * x + y * y) l eps / (H + M) /
        (H * (x * x + y * y) + M * (x * x + y * y) + 2 * a) ^ 2 -
        6 * chiTrunc √(x * x + y * y) l eps /
        (H * (x * x + y * y) + M * (x * x + y * y) + 2 * a) ^ 3)) * this

/-- C62: on the paraboloid of the second particle the axial velocity is plus half the relative velocity
weighted by the cut-off, plus a term with the derivatives of the cut-off (`s = x² + y²`, width of the
gap `a + (H+M) s/2`). -/
theorem C62_normal3D_second (H M a U l eps x y : ℝ) (hH : 0 < H) (hM : 0 < M) (ha : 0 < a) :
    uz_sing_normalMvt3D ![x, y, a + M * (x * x + y * y) / 2] H M a U l eps =
      U / 2 * chiTrunc √(x * x + y * y) l eps +
      U * (x * x + y * y) / 2 * dchiTrunc √(x * x + y * y) l eps -
      U * (a + (H + M) * (x * x + y * y) / 2) / (H + M) * (dchiTrunc √(x * x + y * y) l eps +
        (x * x + y * y) * d2chiTrunc √(x * x + y * y) l eps) := by
  have hs := sq_sum_nonneg x y
  simp only [uz_sing_normalMvt3D, Matrix.cons_val]
  generalize x * x + y * y = s at *
  generalize chiTrunc √s l eps = c0
  generalize dchiTrunc √s l eps = c1
  generalize d2chiTrunc √s l eps = c2
  have ht : H * s + M * s + 2 * a ≠ 0 := by positivity
  have hHM : H + M ≠ 0 := by positivity
  field_simp
  ring

/-- C62: on the second particle, where the cut-off is locally constant. -/
theorem C62_normal3D_second_const (H M a U l eps x y : ℝ) (hH : 0 < H) (hM : 0 < M) (ha : 0 < a)
    (h1 : dchiTrunc √(x * x + y * y) l eps = 0) (h2 : d2chiTrunc √(x * x + y * y) l eps = 0) :
    uz_sing_normalMvt3D ![x, y, a + M * (x * x + y * y) / 2] H M a U l eps =
      U / 2 * chiTrunc √(x * x + y * y) l eps := by
  rw [C62_normal3D_second H M a U l eps x y hH hM ha, h1, h2]
  ring

/-- The hypotheses hold on the axis (and outside of the cut-off radius). -/
example : dchiTrunc √((0 : ℝ) * 0 + 0 * 0) 1 1 = 0 ∧ d2chiTrunc √((0 : ℝ) * 0 + 0 * 0) 1 1 = 0 := by
  rw [dchi_rad (by norm_num), d2chi_rad (by norm_num)]
  norm_num [dalphaTrunc, d2alphaTrunc]

/-- C62 fails in the truncation zone of the second particle. -/
theorem C62_normal3D_second_refuted : ¬ ∀ p H M a U x y : ℝ, 0 < p → 0 < H → 0 < M → 0 < a →
    uz_sing_normalMvt3D ![x, y, a + M * (x * x + y * y) / 2] H M a U p p =
      U / 2 * chiTrunc √(x * x + y * y) p p := by
  intro h
  have := h 1 1 1 1 1 1 0 one_pos one_pos one_pos one_pos
  simp only [uz_sing_normalMvt3D, Matrix.cons_val] at this
  rw [chi_rad one_pos (by norm_num), dchi_rad (by norm_num), d2chi_rad (by norm_num)] at this
  norm_num [alphaTrunc, dalphaTrunc, d2alphaTrunc] at this

end Cafes.Props
