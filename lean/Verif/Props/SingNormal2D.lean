import Verif.Props.Trunc
import Verif.Lemmas.Deriv
import Verif.Model.SingNormal

/-!
C60, C61, C62 for the planar normal motion (particle/singularity/UandPNormal.hpp:51-358).
Coordinates of the contact frame: `X 0 = z` along the line of centres, `X 1 = r` across it. The two
particles are the parabolas `z = - H r²/2` and `z = a + M r²/2`; `U` is the relative normal velocity.
-/

set_option linter.unusedVariables false
set_option linter.flexible false
namespace Cafes.Props
open Cafes.Sing


/-- C60 (uz component, planar normal motion): the coded derivatives of the cross component are its
partial derivatives, at every point. -/
theorem C60_normal2D_uz {p : ℝ} (hp : 0 < p) (H M a U z r : ℝ) (hH : 0 < H) (hM : 0 < M)
    (ha : 0 < a) :
    HasDerivAt (fun z => uz_sing_normalMvt2D ![z, r] H M a U p p)
      (dxuz_sing_normalMvt2D ![z, r] H M a U p p) z ∧
    HasDerivAt (fun r => uz_sing_normalMvt2D ![z, r] H M a U p p)
      (dzuz_sing_normalMvt2D ![z, r] H M a U p p) r := by
  have hc0 := hasDerivAt_chi hp r
  have ht : 2 * a + M * (r * r) + H * (r * r) ≠ 0 := by
    have := mul_self_nonneg r
    positivity
  constructor
  · apply HasDerivAt.congr_deriv
    · simp only [uz_sing_normalMvt2D, Matrix.cons_val_zero, Matrix.cons_val_one]
      hd
    · simp only [dxuz_sing_normalMvt2D, Matrix.cons_val_zero, Matrix.cons_val_one]
      field_simp
      ring
  · apply HasDerivAt.congr_deriv
    · simp only [uz_sing_normalMvt2D, Matrix.cons_val_zero, Matrix.cons_val_one]
      hd
      all_goals exact mul_ne_zero ht ht
    · simp only [dzuz_sing_normalMvt2D, Matrix.cons_val_zero, Matrix.cons_val_one]
      field_simp
      ring

/-- The positive parameters are met by two unit circles at distance 1/10. -/
example : (0 : ℝ) < 1 ∧ (0 : ℝ) < 1 / 10 := by norm_num

/-- The coded axial component on the line `r = 1` for `H = M = a = U = l = eps = 1`. -/
theorem ux2_witness (z : ℝ) : ux_sing_normalMvt2D ![z, 1] 1 1 1 1 1 1 =
    2579 / 8192 + z * (-177 / 4096) + z ^ 2 * (-3603 / 2048) + z ^ 3 * (1201 / 1024) := by
  simp only [ux_sing_normalMvt2D, Matrix.cons_val_zero, Matrix.cons_val_one]
  rw [chi_eq one_pos, dchi_eq, d2chi_eq]
  norm_num [alphaTrunc, dalphaTrunc, d2alphaTrunc]
  ring

theorem ux2_witness_deriv :
    HasDerivAt (fun z => ux_sing_normalMvt2D ![z, 1] 1 1 1 1 1 1) (-177 / 4096) 0 := by
  simp only [ux2_witness]
  apply HasDerivAt.congr_deriv
  · hd
  · norm_num

/-- C60 fails for the axial component of the planar normal motion: inside the cut-off radius the
coded `dxux` is not the derivative of the coded `ux` (the truncation terms of `ux` belong to another
field). -/
theorem C60_normal2D_ux_refuted : ¬ ∀ p H M a U z r : ℝ, 0 < p → 0 < H → 0 < M → 0 < a →
    HasDerivAt (fun z => ux_sing_normalMvt2D ![z, r] H M a U p p)
      (dxux_sing_normalMvt2D ![z, r] H M a U p p) z := by
  intro h
  have := (h 1 1 1 1 1 0 1 one_pos one_pos one_pos one_pos).unique ux2_witness_deriv
  simp only [dxux_sing_normalMvt2D, Matrix.cons_val_zero, Matrix.cons_val_one] at this
  rw [chi_eq one_pos, dchi_eq] at this
  norm_num [alphaTrunc, dalphaTrunc] at this

/-- C60: where the cut-off is locally constant (`dchi = d2chi = 0` on the line `r`: on the
axis and outside of the cut-off radius) `dxux` is the derivative of `ux` along the axis. -/
theorem C60_normal2D_ux (H M a U p z r : ℝ) (hH : 0 < H) (hM : 0 < M)
    (ha : 0 < a) (h1 : dchiTrunc r p p = 0) (h2 : d2chiTrunc r p p = 0) :
    HasDerivAt (fun z => ux_sing_normalMvt2D ![z, r] H M a U p p)
      (dxux_sing_normalMvt2D ![z, r] H M a U p p) z := by
  have ht : 2 * a + M * (r * r) + H * (r * r) ≠ 0 := by
    have := mul_self_nonneg r
    positivity
  have hHM : H + M ≠ 0 := by positivity
  apply HasDerivAt.congr_deriv
  · simp only [ux_sing_normalMvt2D, Matrix.cons_val_zero, Matrix.cons_val_one, h1, h2, mul_zero,
      zero_mul, add_zero, sub_zero]
    hd
  · simp only [dxux_sing_normalMvt2D, Matrix.cons_val_zero, Matrix.cons_val_one, h1]
    field_simp
    ring

/-- The hypotheses of the previous theorem hold on the axis. -/
example : dchiTrunc 0 1 1 = 0 ∧ d2chiTrunc 0 1 1 = 0 := by
  rw [dchi_eq, d2chi_eq]; norm_num [dalphaTrunc, d2alphaTrunc]

/-- C61 (planar normal motion): the coded divergence is identically zero. -/
theorem C61_normal2D (X : Fin 2 → ℝ) (H M a U l eps : ℝ) :
    DIVCART_normalMvt2D X H M a U l eps = 0 := by
  simp only [DIVCART_normalMvt2D, dxux_sing_normalMvt2D, dzuz_sing_normalMvt2D]
  ring

/-- C61 fails for the planar velocity itself: the divergence of the field the code adds to the fluid
(sum of the partial derivatives of its components) is not zero inside the cut-off radius. -/
theorem C61_normal2D_velocity_refuted : ¬ ∀ p H M a U z r dz dr : ℝ, 0 < p → 0 < H → 0 < M → 0 < a →
    HasDerivAt (fun z => ux_sing_normalMvt2D ![z, r] H M a U p p) dz z →
    HasDerivAt (fun r => uz_sing_normalMvt2D ![z, r] H M a U p p) dr r → dz + dr = 0 := by
  intro h
  have := h 1 1 1 1 1 0 1 _ _ one_pos one_pos one_pos one_pos ux2_witness_deriv
    (C60_normal2D_uz one_pos 1 1 1 1 0 1 one_pos one_pos one_pos).2
  simp only [dzuz_sing_normalMvt2D, Matrix.cons_val_zero, Matrix.cons_val_one] at this
  rw [chi_eq one_pos, dchi_eq] at this
  norm_num [alphaTrunc, dalphaTrunc] at this

/-- C62 (planar normal motion): on the parabola of the first particle the fluid moves with minus
half the relative velocity, weighted by the cut-off; the cross component vanishes on both
parabolas. -/
theorem C62_normal2D_first (H M a U l eps r : ℝ) (hH : 0 < H) (hM : 0 < M) (ha : 0 < a) :
    ux_sing_normalMvt2D ![-(H * r ^ 2 / 2), r] H M a U l eps = - (U / 2) * chiTrunc r l eps ∧
    uz_sing_normalMvt2D ![-(H * r ^ 2 / 2), r] H M a U l eps = 0 ∧
    uz_sing_normalMvt2D ![a + M * r ^ 2 / 2, r] H M a U l eps = 0 := by
  have ht : 2 * a + M * (r * r) + H * (r * r) ≠ 0 := by
    have := mul_self_nonneg r
    positivity
  have hHM : H + M ≠ 0 := by positivity
  refine ⟨?_, ?_, ?_⟩
  · simp only [ux_sing_normalMvt2D, Matrix.cons_val_zero, Matrix.cons_val_one]
    field_simp
    ring
  · simp only [uz_sing_normalMvt2D, Matrix.cons_val_zero, Matrix.cons_val_one]
    ring
  · simp only [uz_sing_normalMvt2D, Matrix.cons_val_zero, Matrix.cons_val_one]
    ring

/-- C62: on the parabola of the second particle the axial velocity is plus half the relative velocity
weighted by the cut-off, plus a term with the derivatives of the cut-off (width of the gap
`a + (H+M) r²/2`). -/
theorem C62_normal2D_second (H M a U l eps r : ℝ) (hH : 0 < H) (hM : 0 < M) (ha : 0 < a) :
    ux_sing_normalMvt2D ![a + M * r ^ 2 / 2, r] H M a U l eps = U / 2 * chiTrunc r l eps +
      U * r ^ 2 * dchiTrunc r l eps - U * (a + (H + M) * r ^ 2 / 2) / (H + M) *
        (dchiTrunc r l eps + 2 * r ^ 2 * d2chiTrunc r l eps) := by
  have ht : 2 * a + M * (r * r) + H * (r * r) ≠ 0 := by
    have := mul_self_nonneg r
    positivity
  have hHM : H + M ≠ 0 := by positivity
  simp only [ux_sing_normalMvt2D, Matrix.cons_val_zero, Matrix.cons_val_one]
  generalize chiTrunc r l eps = c0
  generalize dchiTrunc r l eps = c1
  generalize d2chiTrunc r l eps = c2
  field_simp
  ring

/-- C62: where the cut-off is locally constant, the fluid moves on the second parabola with plus half
the relative velocity times the cut-off. -/
theorem C62_normal2D_second_const (H M a U l eps r : ℝ) (hH : 0 < H) (hM : 0 < M) (ha : 0 < a)
    (h1 : dchiTrunc r l eps = 0) (h2 : d2chiTrunc r l eps = 0) :
    ux_sing_normalMvt2D ![a + M * r ^ 2 / 2, r] H M a U l eps = U / 2 * chiTrunc r l eps := by
  rw [C62_normal2D_second H M a U l eps r hH hM ha, h1, h2]
  ring

/-- C62 fails in the truncation zone of the second particle: there the axial velocity is not half the
relative velocity weighted by the cut-off. -/
theorem C62_normal2D_second_refuted : ¬ ∀ p H M a U r : ℝ, 0 < p → 0 < H → 0 < M → 0 < a →
    ux_sing_normalMvt2D ![a + M * r ^ 2 / 2, r] H M a U p p = U / 2 * chiTrunc r p p := by
  intro h
  have := h 1 1 1 (1 / 2) 1 1 one_pos one_pos one_pos (by norm_num)
  simp only [ux_sing_normalMvt2D, Matrix.cons_val_zero, Matrix.cons_val_one] at this
  rw [chi_eq one_pos, dchi_eq, d2chi_eq] at this
  norm_num [alphaTrunc, dalphaTrunc, d2alphaTrunc] at this

/-! ### Exact description of the planar field -/

/-- `w = 2 (z - z₁(r))`, twice the distance to the parabola of the first particle. -/
def Spec.gapW (H z r : ℝ) : ℝ := 2 * z + H * r ^ 2

/-- Twice the width of the gap on the line `r`. -/
def Spec.gapT (H M a r : ℝ) : ℝ := 2 * a + (H + M) * r ^ 2

/-- The stream function whose `-∂z` is the coded cross component:
`U r w²(3T-2w)/T³ χ(r)`. -/
noncomputable def Spec.stream2 (H M a U p z r : ℝ) : ℝ :=
  U * r * Spec.gapW H z r ^ 2 * (3 * Spec.gapT H M a r - 2 * Spec.gapW H z r) /
    Spec.gapT H M a r ^ 3 * chiTrunc r p p

/-- The stream function of the cross velocity the code leaves out: the truncated pressure is
`q(r) χ(r)` and the lubrication velocity is half of `∂r (q χ) (z-z₁)(z-z₂)`; the coded cross
component has only the term in `q'`, the term in `χ'` gives this stream function. -/
noncomputable def Spec.missing2 (H M a U p z r : ℝ) : ℝ :=
  U * r * Spec.gapW H z r ^ 2 * (3 * Spec.gapT H M a r - 2 * Spec.gapW H z r) /
    (2 * (H + M) * Spec.gapT H M a r ^ 2) * dchiTrunc r p p

/-- The axial velocity consistent with the coded cross component: `-U/2 χ + ∂r stream2`. -/
noncomputable def Spec.axial2 (H M a U p z r : ℝ) : ℝ :=
  -(U / 2) * chiTrunc r p p + deriv (fun r => Spec.stream2 H M a U p z r) r

section
variable {p H M a U z r : ℝ}

private theorem gapT_ne (hH : 0 < H) (hM : 0 < M) (ha : 0 < a) (r : ℝ) :
    2 * a + (H + M) * r ^ 2 ≠ 0 := by positivity

theorem stream2_z (hH : 0 < H) (hM : 0 < M) (ha : 0 < a) :
    HasDerivAt (fun z => Spec.stream2 H M a U p z r)
      (- uz_sing_normalMvt2D ![z, r] H M a U p p) z := by
  have ht := gapT_ne hH hM ha r
  have ht' : 2 * a + M * (r * r) + H * (r * r) ≠ 0 := by
    have := mul_self_nonneg r
    positivity
  apply HasDerivAt.congr_deriv
  · simp only [Spec.stream2, Spec.gapW, Spec.gapT]
    hd
  · simp only [uz_sing_normalMvt2D, Matrix.cons_val_zero, Matrix.cons_val_one]
    field_simp
    ring

/-- `∂r stream2`, written out. -/
theorem stream2_r (hp : 0 < p) (hH : 0 < H) (hM : 0 < M) (ha : 0 < a) (z r : ℝ) :
    HasDerivAt (fun r => Spec.stream2 H M a U p z r)
      (U * ((2 * z + H * r ^ 2) ^ 2 * (6 * a + (H + 3 * M) * r ^ 2 - 4 * z) *
          (1 / (2 * a + (H + M) * r ^ 2) ^ 3 - 6 * (H + M) * r ^ 2 / (2 * a + (H + M) * r ^ 2) ^ 4) +
        r * (4 * H * r * (2 * z + H * r ^ 2) * (6 * a + (H + 3 * M) * r ^ 2 - 4 * z) +
          (2 * z + H * r ^ 2) ^ 2 * (2 * (H + 3 * M) * r)) / (2 * a + (H + M) * r ^ 2) ^ 3) *
          chiTrunc r p p +
        U * r * (2 * z + H * r ^ 2) ^ 2 * (6 * a + (H + 3 * M) * r ^ 2 - 4 * z) /
          (2 * a + (H + M) * r ^ 2) ^ 3 * (2 * r * dchiTrunc r p p)) r := by
  have hc := hasDerivAt_chi hp r
  have ht := gapT_ne hH hM ha r
  apply HasDerivAt.congr_deriv
  · simp only [Spec.stream2, Spec.gapW, Spec.gapT]
    hd
    all_goals positivity
  · generalize chiTrunc r p p = c0
    generalize dchiTrunc r p p = c1
    field_simp
    ring

theorem axial2_eq (hp : 0 < p) (hH : 0 < H) (hM : 0 < M) (ha : 0 < a) (z r : ℝ) :
    Spec.axial2 H M a U p z r = -(U / 2) * chiTrunc r p p +
      (U * ((2 * z + H * r ^ 2) ^ 2 * (6 * a + (H + 3 * M) * r ^ 2 - 4 * z) *
          (1 / (2 * a + (H + M) * r ^ 2) ^ 3 - 6 * (H + M) * r ^ 2 / (2 * a + (H + M) * r ^ 2) ^ 4) +
        r * (4 * H * r * (2 * z + H * r ^ 2) * (6 * a + (H + 3 * M) * r ^ 2 - 4 * z) +
          (2 * z + H * r ^ 2) ^ 2 * (2 * (H + 3 * M) * r)) / (2 * a + (H + M) * r ^ 2) ^ 3) *
          chiTrunc r p p +
        U * r * (2 * z + H * r ^ 2) ^ 2 * (6 * a + (H + 3 * M) * r ^ 2 - 4 * z) /
          (2 * a + (H + M) * r ^ 2) ^ 3 * (2 * r * dchiTrunc r p p)) := by
  rw [Spec.axial2, (stream2_r hp hH hM ha z r).deriv]

/-- C60 (planar normal motion, exact): the four coded derivatives are the partial derivatives of the
divergence free field `(axial2, uz)`, at every point; `uz` is the coded cross component, and the coded
axial component is `axial2` minus the `r`-derivative of the stream function of the cross velocity the
code leaves out. Hence the coded tensor is the gradient of the coded velocity exactly where that last
term is stationary. -/
theorem C60_normal2D_exact (hp : 0 < p) (hH : 0 < H) (hM : 0 < M) (ha : 0 < a) (z r : ℝ) :
    (HasDerivAt (fun z => Spec.axial2 H M a U p z r)
      (dxux_sing_normalMvt2D ![z, r] H M a U p p) z ∧
    HasDerivAt (fun r => Spec.axial2 H M a U p z r)
      (dzux_sing_normalMvt2D ![z, r] H M a U p p) r) ∧
    (HasDerivAt (fun z => uz_sing_normalMvt2D ![z, r] H M a U p p)
      (dxuz_sing_normalMvt2D ![z, r] H M a U p p) z ∧
    HasDerivAt (fun r => uz_sing_normalMvt2D ![z, r] H M a U p p)
      (dzuz_sing_normalMvt2D ![z, r] H M a U p p) r) ∧
    HasDerivAt (fun r => Spec.missing2 H M a U p z r)
      (Spec.axial2 H M a U p z r - ux_sing_normalMvt2D ![z, r] H M a U p p) r := by
  have hc0 := hasDerivAt_chi hp r
  have hc1 := hasDerivAt_dchi hp r
  have ht := gapT_ne hH hM ha r
  have hHM : H + M ≠ 0 := by positivity
  have ht' : 2 * a + M * (r * r) + H * (r * r) ≠ 0 := by
    have := mul_self_nonneg r
    positivity
  have et : 2 * a + M * (r * r) + H * (r * r) = 2 * a + (H + M) * r ^ 2 := by ring
  have et2 : 2 * a + r * r * M + H * (r * r) = 2 * a + (H + M) * r ^ 2 := by ring
  refine ⟨⟨?_, ?_⟩, C60_normal2D_uz hp H M a U z r hH hM ha, ?_⟩
  · rw [show (fun z => Spec.axial2 H M a U p z r) = _ from
      funext fun z => axial2_eq hp hH hM ha z r]
    apply HasDerivAt.congr_deriv
    · hd
    · simp only [dxux_sing_normalMvt2D, Matrix.cons_val_zero, Matrix.cons_val_one]
      rw [et]
      generalize chiTrunc r p p = c0
      generalize dchiTrunc r p p = c1
      field_simp
      ring
  · rw [show (fun r => Spec.axial2 H M a U p z r) = _ from
      funext fun r => axial2_eq hp hH hM ha z r]
    apply HasDerivAt.congr_deriv
    · hd
      all_goals positivity
    · simp only [dzux_sing_normalMvt2D, Matrix.cons_val_zero, Matrix.cons_val_one]
      rw [et2]
      generalize chiTrunc r p p = c0
      generalize dchiTrunc r p p = c1
      generalize d2chiTrunc r p p = c2
      field_simp
      ring
  · rw [axial2_eq hp hH hM ha]
    apply HasDerivAt.congr_deriv
    · simp only [Spec.missing2, Spec.gapW, Spec.gapT]
      hd
      all_goals positivity
    · simp only [ux_sing_normalMvt2D, Matrix.cons_val_zero, Matrix.cons_val_one]
      rw [et]
      generalize chiTrunc r p p = c0
      generalize dchiTrunc r p p = c1
      generalize d2chiTrunc r p p = c2
      field_simp
      ring

/-- The cross velocity the code leaves out: the `χ'` part of half of `∂r (q χ) (z-z₁)(z-z₂)`, where
`q = -24 U / ((H+M) T²)` is the lubrication pressure. -/
noncomputable def Spec.missingCross2 (H M a U p z r : ℝ) : ℝ :=
  1 / 2 * (-24 * U / ((H + M) * Spec.gapT H M a r ^ 2)) * (2 * r * dchiTrunc r p p) *
    ((z + H * r ^ 2 / 2) * (z - (a + M * r ^ 2 / 2)))

/-- C61 (planar normal motion, velocity): with the missing cross velocity added to its cross component
the coded velocity is divergence free at every point; so its own divergence is minus the derivative of
the missing term. -/
theorem C61_normal2D_velocity (hp : 0 < p) (hH : 0 < H) (hM : 0 < M) (ha : 0 < a) (z r : ℝ) :
    ∃ dz dr, HasDerivAt (fun z => ux_sing_normalMvt2D ![z, r] H M a U p p) dz z ∧
      HasDerivAt (fun r => uz_sing_normalMvt2D ![z, r] H M a U p p +
        Spec.missingCross2 H M a U p z r) dr r ∧ dz + dr = 0 := by
  have hc1 := hasDerivAt_dchi hp r
  have ht := gapT_ne hH hM ha r
  have hHM : H + M ≠ 0 := by positivity
  have e : ∀ z, ux_sing_normalMvt2D ![z, r] H M a U p p = Spec.axial2 H M a U p z r -
      deriv (fun r => Spec.missing2 H M a U p z r) r := by
    intro z
    rw [(C60_normal2D_exact hp hH hM ha z r).2.2.deriv]
    ring
  have hm : ∀ z, HasDerivAt (fun r => Spec.missing2 H M a U p z r)
      (U / (2 * (H + M)) * (((2 * z + H * r ^ 2) ^ 2 * (6 * a + (H + 3 * M) * r ^ 2 - 4 * z) *
          (1 / (2 * a + (H + M) * r ^ 2) ^ 2 - 4 * (H + M) * r ^ 2 / (2 * a + (H + M) * r ^ 2) ^ 3) +
        r * (4 * H * r * (2 * z + H * r ^ 2) * (6 * a + (H + 3 * M) * r ^ 2 - 4 * z) +
          (2 * z + H * r ^ 2) ^ 2 * (2 * (H + 3 * M) * r)) / (2 * a + (H + M) * r ^ 2) ^ 2) *
          dchiTrunc r p p +
        r * (2 * z + H * r ^ 2) ^ 2 * (6 * a + (H + 3 * M) * r ^ 2 - 4 * z) /
          (2 * a + (H + M) * r ^ 2) ^ 2 * (2 * r * d2chiTrunc r p p))) r := by
    intro z
    apply HasDerivAt.congr_deriv
    · simp only [Spec.missing2, Spec.gapW, Spec.gapT]
      hd
      all_goals positivity
    · generalize dchiTrunc r p p = c0
      generalize d2chiTrunc r p p = c1
      field_simp
      ring
  have hx := (C60_normal2D_exact (U := U) hp hH hM ha z r).1.1
  have hz := (C60_normal2D_exact (U := U) hp hH hM ha z r).2.1.2
  have hdm : ∃ d, HasDerivAt (fun z => deriv (fun r => Spec.missing2 H M a U p z r) r) d z ∧
      HasDerivAt (fun r => Spec.missingCross2 H M a U p z r) d r := by
    rw [show (fun z => deriv (fun r => Spec.missing2 H M a U p z r) r) = _ from
      funext fun z => (hm z).deriv]
    apply Exists.intro
    apply And.intro
    rotate_left
    · simp only [Spec.missingCross2, Spec.gapT]
      hd
      all_goals positivity
    · apply HasDerivAt.congr_deriv
      · hd
      · generalize dchiTrunc r p p = c0
        generalize d2chiTrunc r p p = c1
        field_simp
        ring
  obtain ⟨d, hd1, hd2⟩ := hdm
  refine ⟨dxux_sing_normalMvt2D ![z, r] H M a U p p - d, _, ?_, hz.add hd2, ?_⟩
  · exact (hx.sub hd1).congr_of_eventuallyEq (Filter.Eventually.of_forall e)
  · have := C61_normal2D ![z, r] H M a U p p
    simp only [DIVCART_normalMvt2D] at this
    linarith

end

end Cafes.Props
