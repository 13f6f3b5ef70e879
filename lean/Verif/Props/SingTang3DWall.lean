import Verif.Props.SingTang3D

/-!
C92: the tangential motion in 3D: closed forms of the coded components valid on the axis too, boundary values,
lubrication equation, axis.
-/

set_option linter.unusedVariables false
set_option linter.flexible false
set_option linter.unusedSectionVars false
set_option maxRecDepth 4000
namespace Cafes.Props
open Cafes.Sing

section
/-- The width of the gap (twice) and the height above the lower wall (twice), at squared distance `s` from the axis. -/
noncomputable def tangT (H M d s : ℝ) : ℝ := H * s + M * s + 2 * d
noncomputable def tangZ (M s z : ℝ) : ℝ := M * s + 2 * z

/-- The Couette and Poiseuille profile of the tangential motion. -/
noncomputable def tangV (H M d s z c0 : ℝ) : ℝ :=
  c0 * (1 - 2 * tangZ M s z / tangT H M d s + 6 * (H - M) * tangZ M s z * (tangT H M d s - tangZ M s z) /
    (5 * (H + M) * tangT H M d s ^ 2))

noncomputable def tangG (H M d s z c0 c1 : ℝ) : ℝ :=
  12 * (H - M) * tangZ M s z * (tangT H M d s - tangZ M s z) * (2 * (H + M) * c0 - tangT H M d s * c1) /
    (5 * (H + M) * tangT H M d s ^ 3)

/-- The axial amplitude divided by the distance to the axis. -/
noncomputable def tangW (H M d s z c0 c1 c2 : ℝ) : ℝ :=
  let t1 : ℝ := s;
  let t2 : ℝ := M * t1;
  let t4 : ℝ := t2 + 2 * z;
  let t5 : ℝ := H * H;
  let t6 : ℝ := t5 * t5;
  let t7 : ℝ := t6 * M;
  let t8 : ℝ := t1 * t1;
  let t9 : ℝ := t8 * t1;
  let t12 : ℝ := t5 * H;
  let t13 : ℝ := M * M;
  let t14 : ℝ := t12 * t13;
  let t17 : ℝ := t13 * M;
  let t18 : ℝ := t5 * t17;
  let t24 : ℝ := t12 * M;
  let t25 : ℝ := d * t8;
  let t28 : ℝ := t8 * z;
  let t31 : ℝ := t5 * t13;
  let t36 : ℝ := H * t17;
  let t41 : ℝ := t12 * d;
  let t42 : ℝ := t1 * z;
  let t46 : ℝ := z * z;
  let t49 : ℝ := t5 * M;
  let t50 : ℝ := d * d;
  let t51 : ℝ := t50 * t1;
  let t55 : ℝ := d * t1 * z;
  let t58 : ℝ := -32 * t12 * t1 * t46 + 16 * t6 * t8 * z - 40 * t14 * t9 - 20 * t18 * t9 - 136 * t24 * t25 + 56 * t24 * t28 - 160 * t31 * t25 - 24 * t36 * t25 + 64 * t31 * t28 + 24 * t36 * t28 - 32 * t41 * t42 - 208 * t49 * t51 + 224 * t49 * t55 - 20 * t7 * t9;
  let t59 : ℝ := t1 * t46;
  let t62 : ℝ := H * t13;
  let t69 : ℝ := t17 * t50;
  let t72 : ℝ := t17 * d;
  let t78 : ℝ := t5 * t50;
  let t81 : ℝ := t5 * d;
  let t84 : ℝ := H * M;
  let t85 : ℝ := t50 * d;
  let t91 : ℝ := t13 * t85;
  let t93 : ℝ := t13 * t50;
  let t96 : ℝ := t13 * d;
  let t99 : ℝ := 32 * t17 * t1 * t46 + 32 * t84 * t50 * z + 32 * t69 * t1 - 64 * t72 * t42 + 128 * t81 * t46 - 128 * t96 * t46 - 32 * t49 * t59 - 224 * t62 * t51 + 192 * t62 * t55 + 32 * t62 * t59 - 128 * t78 * z - 32 * t84 * t85 + 256 * t93 * z - 128 * t91;
  let t106 : ℝ := (t1 * H + 2 * d + t2) ^ 2;
  let t107 : ℝ := t106 * t106;
  let t108 : ℝ := 1 / t107;
  let t110 : ℝ := 1 / (H + M);
  let t112 : ℝ := c0;
  let t116 : ℝ := t8 * t8;
  let t125 : ℝ := t13 * t13;
  let t126 : ℝ := H * t125;
  let t129 : ℝ := t125 * M;
  let t138 : ℝ := d * t9;
  let t141 : ℝ := t9 * z;
  let t152 : ℝ := t125 * d;
  let t166 : ℝ := t50 * t8;
  let t169 : ℝ := 5 * t6 * H * t116 + 40 * t6 * d * t9 + 32 * t12 * t8 * t46 + 120 * t12 * t50 * t8 - 6 * t125 * t9 * z - 22 * t6 * t9 * z - 3 * t126 * t116 - 2 * t129 * t116 + 38 * t14 * t116 + 16 * t18 * t116 + 26 * t7 * t116 + 202 * t24 * t138 + 174 * t31 * t138 - 2 * t36 * t138 - 56 * t24 * t141 - 52 * t31 * t141 - 24 * t36 * t141 - 14 * t152 * t9 + 516 * t49 * t166 - 60 * t41 * t28;
  let t170 : ℝ := t25 * z;
  let t173 : ℝ := t8 * t46;
  let t204 : ℝ := t50 * t50;
  let t207 : ℝ := H * t85;
  let t210 : ℝ := H * t50;
  let t215 : ℝ := M * t85;
  let t218 : ℝ := M * t50;
  let t221 : ℝ := 160 * t5 * t85 * t1 + 472 * t84 * t85 * t1 - 32 * t17 * t8 * t46 - 464 * t84 * t51 * z + 80 * H * t204 + 80 * M * t204 - 72 * t91 * t1 + 160 * t62 * t166 - 276 * t49 * t170 - 180 * t62 * t170 + 32 * t49 * t173 - 32 * t62 * t173 + 112 * t207 * z - 128 * t210 * t46 - 272 * t215 * z + 128 * t218 * t46 + 36 * t72 * t28 + 24 * t78 * t42 - 40 * t93 * t42 - 76 * t69 * t8;
  let t225 : ℝ := c1;
  let t229 : ℝ := t116 * t1;
  let t243 : ℝ := d * t116;
  let t246 : ℝ := t116 * z;
  let t267 : ℝ := t50 * t9;
  let t270 : ℝ := t138 * z;
  let t273 : ℝ := 4 * t125 * t116 * z + 12 * t6 * t116 * z - 16 * t12 * t9 * t46 - 20 * t152 * t116 - 8 * t126 * t229 - 2 * t129 * t229 + 8 * t14 * t229 + 72 * t41 * t141 - 4 * t18 * t229 + 6 * t7 * t229 + 36 * t24 * t243 + 8 * t24 * t246 + 20 * t31 * t243 - 36 * t36 * t243 - 16 * t31 * t246 - 8 * t36 * t246 + 72 * t49 * t267 + 8 * t49 * t270;
  let t274 : ℝ := t9 * t46;
  let t314 : ℝ := -64 * t84 * t166 * z + 16 * t17 * t9 * t46 + 48 * t84 * t85 * t8 - 8 * t72 * t141 - 64 * t81 * t173 + 64 * t96 * t173 + 96 * t207 * t42 - 64 * t210 * t59 - 96 * t215 * t42 + 64 * t218 * t59 - 16 * t62 * t267 - 72 * t62 * t270 - 16 * t49 * t274 + 16 * t62 * t274 + 144 * t78 * t28 - 80 * t93 * t28 - 56 * t69 * t9 - 48 * t91 * t8;
  let t318 : ℝ := c2;
  t4 * (t99 + t58) * t108 * t110 * t112 / 5 + t4 * (t221 + t169) * t225 * t108 * t110 / 5 + t4 * (t314 + t273) * t318 * t108 * t110 / 5

variable (H M d U l eps x y z : ℝ)

theorem tangT_ne (hH : 0 < H) (hM : 0 < M) (hd : 0 < d) : tangT H M d (x * x + y * y) ≠ 0 :=
  rad_den hH hM hd (sq_sum_nonneg x y)

set_option maxHeartbeats 4000000 in
theorem V0_closed (hH : 0 < H) (hM : 0 < M) (hd : 0 < d) : V0_tang3D ![x, y, z] H M d U l eps =
    tangV H M d (x * x + y * y) z (chiTrunc √(x * x + y * y) l eps) := by
  have ht := rad_den hH hM hd (sq_sum_nonneg x y)
  have ht' := tangT_ne H M d x y hH hM hd
  have hHM : H + M ≠ 0 := by positivity
  simp only [V0_tang3D, tangV, Matrix.cons_val]
  generalize √(x * x + y * y) = r at *
  generalize x * x + y * y = s at *
  generalize chiTrunc r l eps = c0
  simp only [tangT, tangZ] at ht' ⊢
  generalize hT : H * s + M * s + 2 * d = T at *
  field_simp
  rw [← hT]
  ring

set_option maxHeartbeats 4000000 in
theorem U0_closed (hH : 0 < H) (hM : 0 < M) (hd : 0 < d) : U0_tang3D ![x, y, z] H M d U l eps =
    (x * x + y * y) * tangG H M d (x * x + y * y) z (chiTrunc √(x * x + y * y) l eps) (dchiTrunc √(x * x + y * y) l eps)
      - tangV H M d (x * x + y * y) z (chiTrunc √(x * x + y * y) l eps) := by
  have ht := rad_den hH hM hd (sq_sum_nonneg x y)
  have ht' := tangT_ne H M d x y hH hM hd
  have hHM : H + M ≠ 0 := by positivity
  simp only [U0_tang3D, tangV, tangG, Matrix.cons_val]
  generalize √(x * x + y * y) = r at *
  generalize x * x + y * y = s at *
  generalize chiTrunc r l eps = c0
  generalize dchiTrunc r l eps = c1
  simp only [tangT, tangZ] at ht' ⊢
  generalize hT : H * s + M * s + 2 * d = T at *
  field_simp
  rw [← hT]
  ring

theorem W0_closed : W0_tang3D ![x, y, z] H M d U l eps =
    √(x * x + y * y) * tangW H M d (x * x + y * y) z (chiTrunc √(x * x + y * y) l eps) (dchiTrunc √(x * x + y * y) l eps)
      (d2chiTrunc √(x * x + y * y) l eps) := by
  simp only [W0_tang3D, tangW, Matrix.cons_val]
  generalize √(x * x + y * y) = r at *
  generalize x * x + y * y = s at *
  ring

/-- The three components at every point, the axis included. -/
theorem tang3_ux_all (hH : 0 < H) (hM : 0 < M) (hd : 0 < d) : ux_sing_tangMvt3D ![x, y, z] H M d U l eps =
    U / 2 * (x * x * tangG H M d (x * x + y * y) z (chiTrunc √(x * x + y * y) l eps) (dchiTrunc √(x * x + y * y) l eps)
      - tangV H M d (x * x + y * y) z (chiTrunc √(x * x + y * y) l eps)) := by
  by_cases h : x * x + y * y = 0
  · have hx : x = 0 := by nlinarith [mul_self_nonneg x, mul_self_nonneg y]
    have e : ux_sing_tangMvt3D ![x, y, z] H M d U l eps = ur_sing_tangMvt3D ![x, y, z] H M d U l eps :=
      if_neg (not_not.2 h)
    have e2 : ur_sing_tangMvt3D ![x, y, z] H M d U l eps = U * U0_tang3D ![x, y, z] H M d U l eps * 1 / 2 := by
      simp only [ur_sing_tangMvt3D, Matrix.cons_val, ne_eq, h, not_true_eq_false, if_false]
    rw [e, e2, U0_closed _ _ _ _ _ _ _ _ _ hH hM hd, h, hx]
    ring
  · rw [tang3_ux_off _ _ _ _ _ _ _ _ _ h, U0_closed _ _ _ _ _ _ _ _ _ hH hM hd, V0_closed _ _ _ _ _ _ _ _ _ hH hM hd]
    congr 1
    rw [div_eq_iff h]
    ring

theorem tang3_uy_all (hH : 0 < H) (hM : 0 < M) (hd : 0 < d) : uy_sing_tangMvt3D ![x, y, z] H M d U l eps =
    U / 2 * (x * y * tangG H M d (x * x + y * y) z (chiTrunc √(x * x + y * y) l eps)
      (dchiTrunc √(x * x + y * y) l eps)) := by
  by_cases h : x * x + y * y = 0
  · have hx : x = 0 := by nlinarith [mul_self_nonneg x, mul_self_nonneg y]
    have e : uy_sing_tangMvt3D ![x, y, z] H M d U l eps = ut_sing_tangMvt3D ![x, y, z] H M d U l eps :=
      if_neg (not_not.2 h)
    have e2 : ut_sing_tangMvt3D ![x, y, z] H M d U l eps = U * V0_tang3D ![x, y, z] H M d U l eps * 0 / 2 := by
      simp only [ut_sing_tangMvt3D, Matrix.cons_val, ne_eq, h, not_true_eq_false, if_false]
    rw [e, e2, hx]
    ring
  · rw [tang3_uy_off _ _ _ _ _ _ _ _ _ h, U0_closed _ _ _ _ _ _ _ _ _ hH hM hd, V0_closed _ _ _ _ _ _ _ _ _ hH hM hd]
    congr 1
    rw [div_eq_iff h]
    ring

theorem tang3_uz_all : uz_sing_tangMvt3D ![x, y, z] H M d U l eps =
    U / 2 * (x * tangW H M d (x * x + y * y) z (chiTrunc √(x * x + y * y) l eps) (dchiTrunc √(x * x + y * y) l eps)
      (d2chiTrunc √(x * x + y * y) l eps)) := by
  by_cases h : x * x + y * y = 0
  · have hx : x = 0 := by nlinarith [mul_self_nonneg x, mul_self_nonneg y]
    have e2 : uz_sing_tangMvt3D ![x, y, z] H M d U l eps = U * W0_tang3D ![x, y, z] H M d U l eps * 1 / 2 := by
      simp only [uz_sing_tangMvt3D, Matrix.cons_val, ne_eq, h, not_true_eq_false, if_false]
    rw [e2, W0_closed, h, hx, Real.sqrt_zero]
    ring
  · have hr := rad_ne h
    rw [tang3_uz_off _ _ _ _ _ _ _ _ _ h, W0_closed]
    congr 1
    rw [div_eq_iff hr]
    ring

end

/-! ### Off the axis -/

theorem off_axis_ne {x y : ℝ} (h : x ≠ 0 ∨ y ≠ 0) : x * x + y * y ≠ 0 := by
  intro e
  have hx : x = 0 := by nlinarith [mul_self_nonneg x, mul_self_nonneg y]
  have hy : y = 0 := by nlinarith [mul_self_nonneg x, mul_self_nonneg y]
  tauto

/-- C92 (gradient): off the line of centres, the nine coded derivatives of the tangential field are the partial
derivatives of its three coded components, cut-off zone included. -/
theorem C92_gradient3D {p : ℝ} (hp : 0 < p) (H M d U x y z : ℝ) (hH : 0 < H) (hM : 0 < M) (hd : 0 < d)
    (h : x ≠ 0 ∨ y ≠ 0) :
    (HasDerivAt (fun x => ux_sing_tangMvt3D ![x, y, z] H M d U p p) (dxux_sing_tangMvt3D ![x, y, z] H M d U p p) x ∧
     HasDerivAt (fun y => ux_sing_tangMvt3D ![x, y, z] H M d U p p) (dyux_sing_tangMvt3D ![x, y, z] H M d U p p) y ∧
     HasDerivAt (fun z => ux_sing_tangMvt3D ![x, y, z] H M d U p p) (dzux_sing_tangMvt3D ![x, y, z] H M d U p p) z) ∧
    (HasDerivAt (fun x => uy_sing_tangMvt3D ![x, y, z] H M d U p p) (dxuy_sing_tangMvt3D ![x, y, z] H M d U p p) x ∧
     HasDerivAt (fun y => uy_sing_tangMvt3D ![x, y, z] H M d U p p) (dyuy_sing_tangMvt3D ![x, y, z] H M d U p p) y ∧
     HasDerivAt (fun z => uy_sing_tangMvt3D ![x, y, z] H M d U p p) (dzuy_sing_tangMvt3D ![x, y, z] H M d U p p) z) ∧
    (HasDerivAt (fun x => uz_sing_tangMvt3D ![x, y, z] H M d U p p) (dxuz_sing_tangMvt3D ![x, y, z] H M d U p p) x ∧
     HasDerivAt (fun y => uz_sing_tangMvt3D ![x, y, z] H M d U p p) (dyuz_sing_tangMvt3D ![x, y, z] H M d U p p) y ∧
     HasDerivAt (fun z => uz_sing_tangMvt3D ![x, y, z] H M d U p p) (dzuz_sing_tangMvt3D ![x, y, z] H M d U p p) z) := by
  have h0 := off_axis_ne h
  exact ⟨⟨tang3_ux_dx H M d U x y z hp hH hM hd h0, tang3_ux_dy H M d U x y z hp hH hM hd h0,
    tang3_ux_dz H M d U x y z hp hH hM hd h0⟩, ⟨tang3_uy_dx H M d U x y z hp hH hM hd h0,
    tang3_uy_dy H M d U x y z hp hH hM hd h0, tang3_uy_dz H M d U x y z hp hH hM hd h0⟩,
    ⟨tang3_uz_dx H M d U x y z hp hH hM hd h0, tang3_uz_dy H M d U x y z hp hH hM hd h0,
    tang3_uz_dz H M d U x y z hp hH hM hd h0⟩⟩

theorem divcart_tang3 (H M d U l eps x y z : ℝ) (hH : 0 < H) (hM : 0 < M) (hd : 0 < d) (h : x * x + y * y ≠ 0) :
    DIVCART_tangMvt3D ![x, y, z] H M d U l eps = 0 := by
  have hr := rad_ne h
  have hr2 := Real.mul_self_sqrt (sq_sum_nonneg x y)
  have hc := tang3_divcyl H M d U l eps x y z hH hM hd h
  simp only [DIVCYLIND_tangMvt3D, Matrix.cons_val] at hc
  simp only [DIVCART_tangMvt3D, dxux_sing_tangMvt3D, dyuy_sing_tangMvt3D, dzuz_sing_tangMvt3D, drur_sing_tangMvt3D,
    ur_sing_tangMvt3D, dtur_sing_tangMvt3D, ut_sing_tangMvt3D, drut_sing_tangMvt3D, dtut_sing_tangMvt3D, Matrix.cons_val,
    ne_eq, h, not_false_eq_true, if_true]
  generalize U0_tang3D ![x, y, z] H M d U l eps = u at *
  generalize V0_tang3D ![x, y, z] H M d U l eps = v at *
  generalize drU0_tang3D ![x, y, z] H M d U l eps = du at *
  generalize drV0_tang3D ![x, y, z] H M d U l eps = dv at *
  generalize dzW0_tang3D ![x, y, z] H M d U l eps = dw at *
  generalize √(x * x + y * y) = r at *
  rw [← hr2] at h ⊢
  field_simp at hc ⊢
  grind

/-- C92 (divergence): off the line of centres the field is divergence free, and both coded divergences are 0. -/
theorem C92_divergence3D {p : ℝ} (hp : 0 < p) (H M d U x y z : ℝ) (hH : 0 < H) (hM : 0 < M) (hd : 0 < d)
    (h : x ≠ 0 ∨ y ≠ 0) :
    (∃ a b c, HasDerivAt (fun x => ux_sing_tangMvt3D ![x, y, z] H M d U p p) a x ∧
      HasDerivAt (fun y => uy_sing_tangMvt3D ![x, y, z] H M d U p p) b y ∧
      HasDerivAt (fun z => uz_sing_tangMvt3D ![x, y, z] H M d U p p) c z ∧ a + b + c = 0) ∧
    DIVCART_tangMvt3D ![x, y, z] H M d U p p = 0 ∧ DIVCYLIND_tangMvt3D ![x, y, z] H M d U p p = 0 :=
  have h0 := off_axis_ne h
  ⟨⟨_, _, _, tang3_ux_dx H M d U x y z hp hH hM hd h0, tang3_uy_dy H M d U x y z hp hH hM hd h0,
    tang3_uz_dz H M d U x y z hp hH hM hd h0, divcart_tang3 H M d U p p x y z hH hM hd h0⟩,
    divcart_tang3 H M d U p p x y z hH hM hd h0, tang3_divcyl H M d U p p x y z hH hM hd h0⟩

/-! ### Boundary values -/

set_option maxHeartbeats 4000000 in
theorem tangW_second (H M d s c0 c1 c2 : ℝ) (hHM : H + M ≠ 0) (hT : H * s + M * s + 2 * d ≠ 0) :
    tangW H M d s (d + H * s / 2) c0 c1 c2 = 2 * (H - M) / (5 * (H + M)) *
      ((4 * d + (H + M) * s) * c1 + s * (2 * d + (H + M) * s) * c2) := by
  have hT' : s * H + 2 * d + M * s ≠ 0 := by intro h; apply hT; rw [← h]; ring
  simp only [tangW]
  generalize hT2 : s * H + 2 * d + M * s = T at *
  have e : M * s + 2 * (d + H * s / 2) = T := by rw [← hT2]; ring
  rw [e]
  clear e
  field_simp
  rw [← hT2]
  ring

/-- C92 (no slip), what the coded field does: it sticks to the paraboloids with the two curvatures exchanged. On
`z = -M r²/2` the velocity is `-U/2` along `x`, on `z = d + H r²/2` it is `U/2` along `x`, times the cut-off, up to an
axial velocity on the second one which has only terms in the derivatives of the cut-off. -/
theorem C92_noslip3D (H M d U l eps x y : ℝ) (hH : 0 < H) (hM : 0 < M) (hd : 0 < d) :
    let s := x ^ 2 + y ^ 2
    (ux_sing_tangMvt3D ![x, y, -(M * s / 2)] H M d U l eps = -(U / 2) * chiTrunc (√s) l eps ∧
     uy_sing_tangMvt3D ![x, y, -(M * s / 2)] H M d U l eps = 0 ∧
     uz_sing_tangMvt3D ![x, y, -(M * s / 2)] H M d U l eps = 0) ∧
    (ux_sing_tangMvt3D ![x, y, d + H * s / 2] H M d U l eps = U / 2 * chiTrunc (√s) l eps ∧
     uy_sing_tangMvt3D ![x, y, d + H * s / 2] H M d U l eps = 0 ∧
     uz_sing_tangMvt3D ![x, y, d + H * s / 2] H M d U l eps = U * (H - M) * x / (5 * (H + M)) *
       ((4 * d + (H + M) * s) * dchiTrunc (√s) l eps + s * (2 * d + (H + M) * s) * d2chiTrunc (√s) l eps)) := by
  intro s
  have es : s = x * x + y * y := by simp only [s]; ring
  clear_value s
  have hT := rad_den hH hM hd (sq_sum_nonneg x y)
  have hHM : H + M ≠ 0 := by positivity
  simp only [tang3_ux_all _ _ _ _ _ _ _ _ _ hH hM hd, tang3_uy_all _ _ _ _ _ _ _ _ _ hH hM hd, tang3_uz_all, ← es]
  rw [← es] at hT
  have z1 : tangZ M s (-(M * s / 2)) = 0 := by rw [tangZ]; ring
  have z2 : tangZ M s (d + H * s / 2) = tangT H M d s := by rw [tangZ, tangT]; ring
  have hT' : tangT H M d s ≠ 0 := hT
  have w1 : tangW H M d s (-(M * s / 2)) (chiTrunc (√s) l eps) (dchiTrunc (√s) l eps) (d2chiTrunc (√s) l eps) = 0 := by
    simp only [tangW]
    rw [show M * s + 2 * -(M * s / 2) = 0 by ring]
    simp only [zero_mul, zero_div, add_zero]
  refine ⟨⟨?_, ?_, ?_⟩, ?_, ?_, ?_⟩
  · rw [tangG, tangV, z1]; ring
  · rw [tangG, z1]; ring
  · rw [w1]; ring
  · rw [tangG, tangV, z2]; field_simp; ring
  · rw [tangG, z2]; ring
  · rw [tangW_second _ _ _ _ _ _ _ hHM hT]
    field_simp

/-- C92 (no slip), refuted for the geometry of the other fields (and of the contact frame): for unequal curvatures the
field does not stick to `z = -H r²/2`. -/
theorem C92_noslip3D_refuted : ¬ ∀ p H M d U x y : ℝ, 0 < p → 0 < H → 0 < M → 0 < d →
    ux_sing_tangMvt3D ![x, y, -(H * (x ^ 2 + y ^ 2) / 2)] H M d U p p =
      -(U / 2) * chiTrunc (√(x ^ 2 + y ^ 2)) p p := by
  intro h
  have h1 := h 1 2 1 (1 / 2) 1 0 1 one_pos two_pos one_pos (by norm_num)
  rw [tang3_ux_all _ _ _ _ _ _ _ _ _ two_pos one_pos (by norm_num)] at h1
  have e1 : √((0 : ℝ) ^ 2 + 1 ^ 2) = 1 := by norm_num
  have e2 : √((0 : ℝ) * 0 + 1 * 1) = 1 := by norm_num
  rw [e1, e2, chi_eq one_pos] at h1
  norm_num [tangV, tangZ, tangT, alphaTrunc] at h1

/-- For equal curvatures the coded field does stick to the two particles. -/
theorem C92_noslip3D_equal (H d U l eps x y : ℝ) (hH : 0 < H) (hd : 0 < d) :
    let s := x ^ 2 + y ^ 2
    (ux_sing_tangMvt3D ![x, y, -(H * s / 2)] H H d U l eps = -(U / 2) * chiTrunc (√s) l eps ∧
     uy_sing_tangMvt3D ![x, y, -(H * s / 2)] H H d U l eps = 0 ∧
     uz_sing_tangMvt3D ![x, y, -(H * s / 2)] H H d U l eps = 0) ∧
    (ux_sing_tangMvt3D ![x, y, d + H * s / 2] H H d U l eps = U / 2 * chiTrunc (√s) l eps ∧
     uy_sing_tangMvt3D ![x, y, d + H * s / 2] H H d U l eps = 0 ∧
     uz_sing_tangMvt3D ![x, y, d + H * s / 2] H H d U l eps = 0) := by
  intro s
  have h := C92_noslip3D H H d U l eps x y hH hH hd
  refine ⟨h.1, h.2.1, h.2.2.1, h.2.2.2.trans ?_⟩
  rw [sub_self, mul_zero, zero_mul, zero_div, zero_mul]

/-! ### Lubrication equation -/

theorem tang3_p_all (H M d U l eps x y z : ℝ) :
    p_sing_withT_tangMvt3D ![x, y, z] H M d U l eps = 24 / 5 * U * (H - M) / (H + M) *
      (x * chiTrunc √(x * x + y * y) l eps / tangT H M d (x * x + y * y) ^ 2) := by
  by_cases h : x * x + y * y = 0
  · have hx : x = 0 := by nlinarith [mul_self_nonneg x, mul_self_nonneg y]
    have hy : y = 0 := by nlinarith [mul_self_nonneg x, mul_self_nonneg y]
    subst hx hy
    simp [p_sing_withT_tangMvt3D]
  · have hr := rad_ne h
    simp only [p_sing_withT_tangMvt3D, Matrix.cons_val, tangT, ne_eq, hr, not_false_eq_true, if_true]
    generalize chiTrunc √(x * x + y * y) l eps = c0
    generalize √(x * x + y * y) = r at *
    field_simp
    ring

/-- The profiles as functions of the height. -/
theorem tangV_dz (H M d s z c0 : ℝ) : HasDerivAt (fun z => tangV H M d s z c0)
    (c0 * (-(4 / tangT H M d s) + 12 * (H - M) * (tangT H M d s - 2 * tangZ M s z) /
      (5 * (H + M) * tangT H M d s ^ 2))) z := by
  apply HasDerivAt.congr_deriv
  · simp only [tangV, tangZ]
    hd
  · rw [tangZ]; ring

theorem tangV_dzz (H M d s z c0 : ℝ) : HasDerivAt (fun z => c0 * (-(4 / tangT H M d s) + 12 * (H - M) *
    (tangT H M d s - 2 * tangZ M s z) / (5 * (H + M) * tangT H M d s ^ 2)))
    (-(48 / 5 * c0 * (H - M) / ((H + M) * tangT H M d s ^ 2))) z := by
  apply HasDerivAt.congr_deriv
  · simp only [tangZ]
    hd
  · generalize tangT H M d s = T
    by_cases h : H + M = 0
    · rw [h]; simp
    by_cases hT : T = 0
    · rw [hT]; simp
    field_simp
    ring

theorem tangG_dz (H M d s z c0 c1 : ℝ) : HasDerivAt (fun z => tangG H M d s z c0 c1)
    (24 * (H - M) * (tangT H M d s - 2 * tangZ M s z) * (2 * (H + M) * c0 - tangT H M d s * c1) /
      (5 * (H + M) * tangT H M d s ^ 3)) z := by
  apply HasDerivAt.congr_deriv
  · simp only [tangG, tangZ]
    hd
  · rw [tangZ]; ring

theorem tangG_dzz (H M d s z c0 c1 : ℝ) : HasDerivAt (fun z => 24 * (H - M) * (tangT H M d s - 2 * tangZ M s z) *
    (2 * (H + M) * c0 - tangT H M d s * c1) / (5 * (H + M) * tangT H M d s ^ 3))
    (-(96 / 5 * (H - M) * (2 * (H + M) * c0 - tangT H M d s * c1) / ((H + M) * tangT H M d s ^ 3))) z := by
  apply HasDerivAt.congr_deriv
  · simp only [tangZ]
    hd
  · generalize tangT H M d s = T
    by_cases h : H + M = 0
    · rw [h]; simp
    by_cases hT : T = 0
    · rw [hT]; simp
    field_simp
    ring

/-- C92 (lubrication): at every point, axis and cut-off zone included, the pressure does not depend on the height and
its two cross derivatives are the second derivatives in the height of the two cross velocities. -/
theorem C92_lubrication3D {p : ℝ} (hp : 0 < p) (H M d U x y z : ℝ) (hH : 0 < H) (hM : 0 < M) (hd : 0 < d) :
    (∃ (v : ℝ → ℝ) (q : ℝ), (∀ z, HasDerivAt (fun z => ux_sing_tangMvt3D ![x, y, z] H M d U p p) (v z) z) ∧
      HasDerivAt v q z ∧ HasDerivAt (fun x => p_sing_withT_tangMvt3D ![x, y, z] H M d U p p) q x) ∧
    (∃ (v : ℝ → ℝ) (q : ℝ), (∀ z, HasDerivAt (fun z => uy_sing_tangMvt3D ![x, y, z] H M d U p p) (v z) z) ∧
      HasDerivAt v q z ∧ HasDerivAt (fun y => p_sing_withT_tangMvt3D ![x, y, z] H M d U p p) q y) ∧
    (∀ z', p_sing_withT_tangMvt3D ![x, y, z'] H M d U p p = p_sing_withT_tangMvt3D ![x, y, z] H M d U p p) := by
  have hT := tangT_ne H M d x y hH hM hd
  have hHM : H + M ≠ 0 := by positivity
  have hsx := hasDerivAt_sq_left x y
  have hsy := hasDerivAt_sq_right x y
  have hcx := hasDerivAt_chi_rad hp (fun x => sq_sum_nonneg x y) hsx
  have hcy := hasDerivAt_chi_rad hp (fun y => sq_sum_nonneg x y) hsy
  refine ⟨⟨fun z => _, _, fun z => HasDerivAt.congr_of_eventuallyEq (hd_cmul (U / 2) (hd_sub (hd_cmul (x * x)
    (tangG_dz H M d (x * x + y * y) z (chiTrunc √(x * x + y * y) p p) (dchiTrunc √(x * x + y * y) p p)))
    (tangV_dz H M d (x * x + y * y) z (chiTrunc √(x * x + y * y) p p))))
    (Filter.Eventually.of_forall fun u => tang3_ux_all _ _ _ _ _ _ _ _ _ hH hM hd),
    hd_cmul (U / 2) (hd_sub (hd_cmul (x * x) (tangG_dzz H M d (x * x + y * y) z _ _)) (tangV_dzz _ _ _ _ _ _)), ?_⟩,
    ⟨fun z => _, _, fun z => HasDerivAt.congr_of_eventuallyEq (hd_cmul (U / 2) (hd_cmul (x * y)
    (tangG_dz H M d (x * x + y * y) z (chiTrunc √(x * x + y * y) p p) (dchiTrunc √(x * x + y * y) p p))))
    (Filter.Eventually.of_forall fun u => tang3_uy_all _ _ _ _ _ _ _ _ _ hH hM hd),
    hd_cmul (U / 2) (hd_cmul (x * y) (tangG_dzz H M d (x * x + y * y) z _ _)), ?_⟩, fun z' => rfl⟩
  · simp only [tang3_p_all]
    apply HasDerivAt.congr_deriv
    · simp only [tangT]
      hd
      exact pow_ne_zero _ hT
    · generalize chiTrunc √(x * x + y * y) p p = c0
      generalize dchiTrunc √(x * x + y * y) p p = c1
      change H * (x * x + y * y) + M * (x * x + y * y) + 2 * d ≠ 0 at hT
      simp only [tangT]
      generalize H * (x * x + y * y) + M * (x * x + y * y) + 2 * d = T at *
      field_simp
      ring
  · simp only [tang3_p_all]
    apply HasDerivAt.congr_deriv
    · simp only [tangT]
      hd
      exact pow_ne_zero _ hT
    · generalize chiTrunc √(x * x + y * y) p p = c0
      generalize dchiTrunc √(x * x + y * y) p p = c1
      change H * (x * x + y * y) + M * (x * x + y * y) + 2 * d ≠ 0 at hT
      simp only [tangT]
      generalize H * (x * x + y * y) + M * (x * x + y * y) + 2 * d = T at *
      field_simp
      ring

/-! ### On the axis -/

theorem chi_axis {p : ℝ} (hp : 0 < p) : chiTrunc √((0 : ℝ) * 0 + 0 * 0) p p = 1 ∧
    dchiTrunc √((0 : ℝ) * 0 + 0 * 0) p p = 0 ∧ d2chiTrunc √((0 : ℝ) * 0 + 0 * 0) p p = 0 := by
  have e : ((0 : ℝ) * 0 + 0 * 0 - p) / p = -1 := by field_simp; ring
  refine ⟨?_, ?_, ?_⟩
  · rw [chi_rad hp (by norm_num), if_pos (by simpa using hp), e]
    norm_num [alphaTrunc]
  · rw [dchi_rad (by norm_num), if_pos (by simpa using hp), e]
    norm_num [dalphaTrunc]
  · rw [d2chi_rad (by norm_num), if_pos (by simpa using hp), e]
    norm_num [d2alphaTrunc]

theorem tangW_axis (H M d z : ℝ) (hHM : H + M ≠ 0) (hd : d ≠ 0) : tangW H M d (0 * 0 + 0 * 0) z 1 0 0 =
    4 * z * (z - d) * (4 * (H ^ 2 - M ^ 2) * z + M * (H + 4 * M) * d) / (5 * (H + M) * d ^ 3) := by
  simp only [tangW]
  norm_num
  field_simp
  ring

theorem tangW_cont (H M d z : ℝ) {s c0 c1 c2 : ℝ → ℝ} {t : ℝ} (hs : ContinuousAt s t) (h0 : ContinuousAt c0 t)
    (h1 : ContinuousAt c1 t) (h2 : ContinuousAt c2 t) (hHM : H + M ≠ 0) (hT : s t * H + 2 * d + M * s t ≠ 0) :
    ContinuousAt (fun u => tangW H M d (s u) z (c0 u) (c1 u) (c2 u)) t := by
  simp only [tangW]
  have hT4 : (s t * H + 2 * d + M * s t) ^ 2 * (s t * H + 2 * d + M * s t) ^ 2 ≠ 0 :=
    mul_ne_zero (pow_ne_zero _ hT) (pow_ne_zero _ hT)
  fun_prop (disch := assumption)

theorem hasDerivAt_id_mul {f : ℝ → ℝ} (hf : ContinuousAt f 0) : HasDerivAt (fun u => u * f u) (f 0) 0 := by
  rw [hasDerivAt_iff_tendsto_slope_zero]
  refine Filter.Tendsto.congr' ?_ (hf.tendsto.mono_left nhdsWithin_le_nhds)
  filter_upwards [self_mem_nhdsWithin] with t ht
  have ht' : t ≠ 0 := ht
  simp [ht']

theorem tang3_axis_coded (H M d U p z : ℝ) :
    dxux_sing_tangMvt3D ![0, 0, z] H M d U p p = 0 ∧ dyux_sing_tangMvt3D ![0, 0, z] H M d U p p = 0 ∧
    dxuy_sing_tangMvt3D ![0, 0, z] H M d U p p = 0 ∧ dyuy_sing_tangMvt3D ![0, 0, z] H M d U p p = 0 ∧
    dxuz_sing_tangMvt3D ![0, 0, z] H M d U p p = 0 ∧ dyuz_sing_tangMvt3D ![0, 0, z] H M d U p p = 0 :=
  have h : ¬ ((0 : ℝ) * 0 + 0 * 0 ≠ 0) := not_not.2 (by norm_num)
  ⟨if_neg h, if_neg h, if_neg h, if_neg h, if_neg h, if_neg h⟩

/-- C92 (axis): on the line of centres eight of the nine coded derivatives are right and the divergence is 0; the
ninth, `∂x uz`, is coded 0 while it has the value given here, non zero in general. -/
theorem C92_axis3D {p : ℝ} (hp : 0 < p) (H M d U z : ℝ) (hH : 0 < H) (hM : 0 < M) (hd : 0 < d) :
    (HasDerivAt (fun x => ux_sing_tangMvt3D ![x, 0, z] H M d U p p) (dxux_sing_tangMvt3D ![0, 0, z] H M d U p p) 0 ∧
     HasDerivAt (fun y => ux_sing_tangMvt3D ![0, y, z] H M d U p p) (dyux_sing_tangMvt3D ![0, 0, z] H M d U p p) 0 ∧
     HasDerivAt (fun z => ux_sing_tangMvt3D ![0, 0, z] H M d U p p) (dzux_sing_tangMvt3D ![0, 0, z] H M d U p p) z) ∧
    (HasDerivAt (fun x => uy_sing_tangMvt3D ![x, 0, z] H M d U p p) (dxuy_sing_tangMvt3D ![0, 0, z] H M d U p p) 0 ∧
     HasDerivAt (fun y => uy_sing_tangMvt3D ![0, y, z] H M d U p p) (dyuy_sing_tangMvt3D ![0, 0, z] H M d U p p) 0 ∧
     HasDerivAt (fun z => uy_sing_tangMvt3D ![0, 0, z] H M d U p p) (dzuy_sing_tangMvt3D ![0, 0, z] H M d U p p) z) ∧
    (dxuz_sing_tangMvt3D ![0, 0, z] H M d U p p = 0 ∧
     HasDerivAt (fun x => uz_sing_tangMvt3D ![x, 0, z] H M d U p p)
       (2 / 5 * U * z * (z - d) * (4 * (H ^ 2 - M ^ 2) * z + M * (H + 4 * M) * d) / ((H + M) * d ^ 3)) 0 ∧
     HasDerivAt (fun y => uz_sing_tangMvt3D ![0, y, z] H M d U p p) (dyuz_sing_tangMvt3D ![0, 0, z] H M d U p p) 0 ∧
     HasDerivAt (fun z => uz_sing_tangMvt3D ![0, 0, z] H M d U p p) (dzuz_sing_tangMvt3D ![0, 0, z] H M d U p p) z) ∧
    DIVCART_tangMvt3D ![0, 0, z] H M d U p p = 0 := by
  obtain ⟨e1, e2, e3, e4, e5, e6⟩ := tang3_axis_coded H M d U p z
  have h00 : ¬ ((0 : ℝ) * 0 + 0 * 0 ≠ 0) := not_not.2 (by norm_num)
  have hHM : H + M ≠ 0 := by positivity
  have e7 : dzuz_sing_tangMvt3D ![0, 0, z] H M d U p p = 0 := by
    have : dzW0_tang3D ![0, 0, z] H M d U p p = 0 := by
      simp only [dzW0_tang3D, Matrix.cons_val]
      rw [show √((0 : ℝ) * 0 + 0 * 0) = 0 by simp]
      simp only [mul_zero, zero_mul, add_zero]
    rw [dzuz_sing_tangMvt3D, this]
    simp
  have e8 : dzux_sing_tangMvt3D ![0, 0, z] H M d U p p = U * dzU0_tang3D ![0, 0, z] H M d U p p * 1 / 2 := by
    have : dzux_sing_tangMvt3D ![0, 0, z] H M d U p p = dzur_sing_tangMvt3D ![0, 0, z] H M d U p p := if_neg h00
    rw [this]
    simp [dzur_sing_tangMvt3D]
  have e9 : dzuy_sing_tangMvt3D ![0, 0, z] H M d U p p = 0 := by
    have : dzuy_sing_tangMvt3D ![0, 0, z] H M d U p p = dzut_sing_tangMvt3D ![0, 0, z] H M d U p p := if_neg h00
    rw [this]
    simp [dzut_sing_tangMvt3D]
  have hy0 : ∀ x y z, x * y = 0 → uy_sing_tangMvt3D ![x, y, z] H M d U p p = 0 := fun x y z h => by
    rw [tang3_uy_all _ _ _ _ _ _ _ _ _ hH hM hd, h]; ring
  have hz0 : ∀ y z, uz_sing_tangMvt3D ![0, y, z] H M d U p p = 0 := fun y z => by
    rw [tang3_uz_all]; ring
  obtain ⟨k0, k1, k2⟩ := chi_axis hp
  have hsx := hasDerivAt_sq_left 0 0
  have hsy := hasDerivAt_sq_right 0 0
  have hcx := hasDerivAt_chi_rad hp (fun x => sq_sum_nonneg x 0) hsx
  have hc1x := hasDerivAt_dchi_rad hp (fun x => sq_sum_nonneg x 0) hsx
  have hc2x := hasDerivAt_d2chi_rad hp (fun x => sq_sum_nonneg x 0) hsx
  have hcy := hasDerivAt_chi_rad hp (fun y => sq_sum_nonneg 0 y) hsy
  have hc1y := hasDerivAt_dchi_rad hp (fun y => sq_sum_nonneg 0 y) hsy
  have hT0 := rad_den hH hM hd (sq_sum_nonneg 0 0)
  refine ⟨⟨?_, ?_, ?_⟩, ⟨?_, ?_, ?_⟩, ⟨e5, ?_, ?_, ?_⟩, ?_⟩
  · rw [e1]
    refine HasDerivAt.congr_of_eventuallyEq ?_
      (Filter.Eventually.of_forall fun u => tang3_ux_all _ _ _ _ _ _ _ _ _ hH hM hd)
    apply HasDerivAt.congr_deriv
    · simp only [tangG, tangV, tangT, tangZ]
      hd
      all_goals positivity
    · simp only [mul_zero, zero_mul, add_zero, zero_add, sub_zero, neg_zero, zero_div]
  · rw [e2]
    refine HasDerivAt.congr_of_eventuallyEq ?_
      (Filter.Eventually.of_forall fun u => tang3_ux_all _ _ _ _ _ _ _ _ _ hH hM hd)
    apply HasDerivAt.congr_deriv
    · simp only [tangG, tangV, tangT, tangZ]
      hd
      all_goals positivity
    · simp only [mul_zero, zero_mul, add_zero, zero_add, sub_zero, neg_zero, zero_div]
  · rw [e8]
    have := (tang3_U0_dz H M d U p p 0 0 z hH hM hd)
    refine HasDerivAt.congr_of_eventuallyEq (((this.const_mul U).mul_const 1).div_const 2)
      (Filter.Eventually.of_forall fun u => ?_)
    have e : ux_sing_tangMvt3D ![0, 0, u] H M d U p p = ur_sing_tangMvt3D ![0, 0, u] H M d U p p := if_neg h00
    simp only
    rw [e]
    simp [ur_sing_tangMvt3D]
  · rw [e3]; simp only [hy0 _ 0 _ (mul_zero _)]; exact hasDerivAt_const _ _
  · rw [e4]; simp only [hy0 0 _ _ (zero_mul _)]; exact hasDerivAt_const _ _
  · rw [e9]; simp only [hy0 0 _ _ (zero_mul _)]; exact hasDerivAt_const _ _
  · refine HasDerivAt.congr_of_eventuallyEq ?_
      (Filter.Eventually.of_forall fun u => tang3_uz_all _ _ _ _ _ _ _ _ _)
    have hc := tangW_cont H M d z hsx.continuousAt hcx.continuousAt hc1x.continuousAt hc2x.continuousAt hHM
      (by norm_num; positivity)
    refine ((hasDerivAt_id_mul hc).const_mul (U / 2)).congr_deriv ?_
    rw [k0, k1, k2, tangW_axis _ _ _ _ hHM hd.ne']
    field_simp
    ring
  · rw [e6]; simp only [hz0]; exact hasDerivAt_const _ _
  · rw [e7]; simp only [hz0]; exact hasDerivAt_const _ _
  · rw [DIVCART_tangMvt3D, e1, e4, e7]; ring

/-- Refuted: the coded `∂x uz` is not the derivative on the line of centres. -/
theorem C92_axis3D_refuted : ¬ ∀ p H M d U z : ℝ, 0 < p → 0 < H → 0 < M → 0 < d →
    HasDerivAt (fun x => uz_sing_tangMvt3D ![x, 0, z] H M d U p p) (dxuz_sing_tangMvt3D ![0, 0, z] H M d U p p) 0 := by
  intro h
  have h1 := h 1 1 1 1 1 (1 / 2) one_pos one_pos one_pos one_pos
  have h2 := (C92_axis3D one_pos 1 1 1 1 (1 / 2) one_pos one_pos one_pos).2.2.1
  rw [h2.1] at h1
  have := h1.unique h2.2.1
  norm_num at this

/-- Two unequal particles near contact meet the hypotheses: at the middle of the gap, on the axis, the field moves. -/
example : ux_sing_tangMvt3D ![0, 0, 1 / 10] 2 1 (1 / 10) 3 1 1 = 3 / 2 := by
  have h := (C92_noslip3D 2 1 (1 / 10) 3 1 1 0 0 (by norm_num) (by norm_num) (by norm_num)).2.1
  have hc := (chi_axis one_pos).1
  norm_num at h hc
  rw [hc] at h
  norm_num at h
  norm_num
  exact h

end Cafes.Props
