/-
Property theorems: C102, the geometric constants of circles and spheres.
-/
import Verif.Model.Constants
import Verif.Props.Shape
import Verif.Lemmas.BallMoments

namespace Cafes.Geometry
open Cafes MeasureTheory Metric Module

/-! ### C102 -/

theorem circle_contains (c : Pos 2 ℝ) (r : ℝ) (hr : 0 < r) (q : Quat ℝ) (hq : PlaneQuat q) (p : Pos 2 ℝ) :
    (circle c r q).contains2 p = true ↔ ∑ i, (p i - c i) ^ 2 < r ^ 2 := by
  unfold Shape.contains2
  rw [decide_eq_true_eq, implicit2_eq]
  have h2 : (2 : ℝ) / (2 / 2) = ((2 : ℕ) : ℝ) := by norm_num
  simp only [circle, mkShape2]
  rw [h2]
  simp only [Real.rpow_natCast, sq_abs, div_pow]
  rw [← add_div, div_lt_one (by positivity)]
  suffices h : (Shape.local2 ⟨c, fun _ => r, 2 / 2, 0, q⟩ p 0) ^ 2 + (Shape.local2 ⟨c, fun _ => r, 2 / 2, 0, q⟩ p 1) ^ 2 =
      ∑ i, (p i - c i) ^ 2 by rw [h]
  unfold Shape.local2
  rcases hq with hq | ⟨a, hq⟩
  · rw [hq, isRotate_quat0]
    simp [posSub, compLoop_apply, Fin.sum_univ_two]
  · obtain ⟨-, hc, -, -, hi⟩ := C36_plane a (posSub p c)
    simp only [hq, hi, if_true, hc]
    have := Real.sin_sq_add_cos_sq a
    simp [planeRot, posSub, compLoop_apply, Fin.sum_univ_two]
    linear_combination ((p 0 - c 0) ^ 2 + (p 1 - c 1) ^ 2) * this

theorem sphere_contains (c : Pos 3 ℝ) (r : ℝ) (hr : 0 < r) (q : Quat ℝ) (p : Pos 3 ℝ) :
    (sphere c r q).contains3 p = true ↔ ∑ i, (p i - c i) ^ 2 < r ^ 2 := by
  unfold Shape.contains3
  rw [decide_eq_true_eq]
  have e1 : (2 : ℝ) / (2 / 2) = ((2 : ℕ) : ℝ) := by norm_num
  have e2 : (2 : ℝ) / 2 / (2 / 2) = 1 := by norm_num
  simp only [sphere, mkShape3, Shape.implicit3]
  rw [e1, e2, Real.rpow_one]
  simp only [Real.rpow_natCast, sq_abs, div_pow]
  rw [← add_div, ← add_div, div_lt_one (by positivity), Fin.sum_univ_three]

section transfer
variable {n : ℕ}

/-- The points at distance less than `r` of `c`. -/
def disk (c : Pos n ℝ) (r : ℝ) : Set (Pos n ℝ) := {p | ∑ i, (p i - c i) ^ 2 < r ^ 2}

theorem disk_preimage (c : Pos n ℝ) (r : ℝ) (hr : 0 < r) :
    disk c r = (fun p => WithLp.toLp 2 (p - c)) ⁻¹' ball (0 : EuclideanSpace ℝ (Fin n)) r := by
  ext p
  simp only [disk, Set.mem_ofPred_eq, Set.mem_preimage, mem_ball_zero_iff]
  rw [← sq_lt_sq₀ (norm_nonneg _) hr.le, EuclideanSpace.norm_sq_eq]
  simp

theorem toLp_sub_preserving (c : Pos n ℝ) :
    MeasurePreserving (fun p : Pos n ℝ => (WithLp.toLp 2 (p - c) : EuclideanSpace ℝ (Fin n))) :=
  (PiLp.volume_preserving_toLp (Fin n)).comp (measurePreserving_sub_right volume c)

theorem toLp_sub_emb (c : Pos n ℝ) :
    MeasurableEmbedding (fun p : Pos n ℝ => (WithLp.toLp 2 (p - c) : EuclideanSpace ℝ (Fin n))) :=
  (MeasurableEquiv.toLp 2 (Fin n → ℝ)).measurableEmbedding.comp (MeasurableEquiv.subRight c).measurableEmbedding

theorem disk_volume (c : Pos n ℝ) (r : ℝ) (hr : 0 < r) :
    volume (disk c r) = volume (ball (0 : EuclideanSpace ℝ (Fin n)) r) := by
  rw [disk_preimage c r hr]
  exact (toLp_sub_preserving c).measure_preimage measurableSet_ball.nullMeasurableSet

theorem disk_integral (c : Pos n ℝ) (r : ℝ) (hr : 0 < r) (f : Pos n ℝ → ℝ) :
    ∫ p in disk c r, f (p - c) = ∫ x in ball (0 : EuclideanSpace ℝ (Fin n)) r, f x := by
  rw [disk_preimage c r hr]
  exact (toLp_sub_preserving c).setIntegral_preimage_emb (toLp_sub_emb c)
    (fun x : EuclideanSpace ℝ (Fin n) => f x) (ball 0 r)

end transfer

theorem ball2_volume (r : ℝ) (hr : 0 ≤ r) :
    volume (ball (0 : EuclideanSpace ℝ (Fin 2)) r) = ENNReal.ofReal (Real.pi * r * r) := by
  rw [InnerProductSpace.volume_ball_of_dim_even (k := 1) (by simp)]
  simp only [finrank_euclideanSpace, Fintype.card_fin, Nat.factorial, pow_one]
  rw [← ENNReal.ofReal_pow hr, ← ENNReal.ofReal_mul (by positivity)]
  congr 1
  norm_num
  ring

theorem ball3_volume (r : ℝ) (hr : 0 ≤ r) :
    volume (ball (0 : EuclideanSpace ℝ (Fin 3)) r) = ENNReal.ofReal (4 / 3 * Real.pi * r * r * r) := by
  rw [InnerProductSpace.volume_ball_of_dim_odd (k := 1) (by simp)]
  simp only [finrank_euclideanSpace, Fintype.card_fin, pow_one]
  rw [← ENNReal.ofReal_pow hr, ← ENNReal.ofReal_mul (by positivity)]
  congr 1
  norm_num [Nat.doubleFactorial]
  ring

/-- The volume of a set of points: Lebesgue measure. -/
noncomputable def measureOf {n : ℕ} (s : Set (Pos n ℝ)) : ℝ := (volume s).toReal

/-- C102 (circles, volume): `volume` is the area of the set of the points the circle contains, `Ci_R` the inverse of
their mean square distance to the centre. -/
theorem C102_disk (c : Pos 2 ℝ) (r : ℝ) (hr : 0 < r) (q : Quat ℝ) (hq : PlaneQuat q) :
    let S := circle c r q
    measureOf {p | S.contains2 p = true} = circleVolume S ∧
    circleCi S * ∫ p in {p | S.contains2 p = true}, ((p 0 - c 0) ^ 2 + (p 1 - c 1) ^ 2) = circleVolume S := by
  intro S
  have hset : {p | S.contains2 p = true} = disk c r := Set.ext fun p => circle_contains c r hr q hq p
  have hv : (volume (disk c r)).toReal = circleVolume S := by
    rw [disk_volume c r hr, ball2_volume r hr.le, ENNReal.toReal_ofReal (by positivity)]
    rfl
  refine ⟨by rw [measureOf, hset, hv], ?_⟩
  rw [hset]
  have h1 := disk_integral c r hr (fun x => x 0 ^ 2 + x 1 ^ 2)
  simp only [Pi.sub_apply] at h1
  rw [h1]
  have h2 := Ball.ball_norm (n := 2) r hr.le
  simp only [EuclideanSpace.norm_sq_eq, Real.norm_eq_abs, sq_abs, Fin.sum_univ_two] at h2
  rw [h2, Measure.real, ← disk_volume c r hr, hv]
  show 2 / (r * r) * _ = _
  push_cast
  field_simp
  norm_num

/-- C102 (spheres, volume): `volume` is the volume of the set of the points the sphere contains, and `Ci_R` the inverse of
the mean of their inertia tensor about the centre, which is isotropic. -/
theorem C102_ball (c : Pos 3 ℝ) (r : ℝ) (hr : 0 < r) (q : Quat ℝ) :
    let S := sphere c r q
    measureOf {p | S.contains3 p = true} = sphereVolume S ∧
    ∀ i j, sphereCi S * ∫ p in {p | S.contains3 p = true},
        ((if i = j then ∑ k, (p k - c k) ^ 2 else 0) - (p i - c i) * (p j - c j)) =
      if i = j then sphereVolume S else 0 := by
  intro S
  have hset : {p | S.contains3 p = true} = disk c r := Set.ext fun p => sphere_contains c r hr q p
  have hv : (volume (disk c r)).toReal = sphereVolume S := by
    rw [disk_volume c r hr, ball3_volume r hr.le, ENNReal.toReal_ofReal (by positivity)]
    rfl
  refine ⟨by rw [measureOf, hset, hv], fun i j => ?_⟩
  rw [hset]
  have h1 := disk_integral c r hr (fun x => (if i = j then ∑ k, x k ^ 2 else 0) - x i * x j)
  simp only [Pi.sub_apply] at h1
  rw [h1, integral_sub, Ball.ball_moments i j r hr.le]
  · rw [Measure.real, ← disk_volume c r hr, hv]
    split_ifs with h
    · have h2 := Ball.ball_norm (n := 3) r hr.le
      simp only [EuclideanSpace.norm_sq_eq, Real.norm_eq_abs, sq_abs] at h2
      rw [h2, Measure.real, ← disk_volume c r hr, hv]
      show 2.5 / (r * r) * _ = _
      push_cast
      field_simp
      norm_num
      ring
    · simp
  · split_ifs
    · exact Ball.integrableOn_ball (by fun_prop) r
    · exact Ball.integrableOn_ball (by fun_prop) r
  · exact Ball.integrableOn_ball (by fun_prop) r

/-- The sphere of radius `r` of the space of dimension `n`: its measure, and the mean over it of a function of the
direction, from the surface measure of the unit sphere. -/
noncomputable def sphereMeasure (n : ℕ) (r : ℝ) : ℝ :=
  r ^ (n - 1) * ((volume : Measure (EuclideanSpace ℝ (Fin n))).toSphere Set.univ).toReal

/-- The integral over the sphere of radius `r` of a function of the position. -/
noncomputable def sphereIntegral (n : ℕ) (r : ℝ) (f : Pos n ℝ → ℝ) : ℝ :=
  r ^ (n - 1) * ∫ s : Metric.sphere (0 : EuclideanSpace ℝ (Fin n)) 1, f (fun i => r * s.1 i)
    ∂(volume : Measure (EuclideanSpace ℝ (Fin n))).toSphere

theorem sphere_inertia (n : ℕ) [NeZero n] (r : ℝ) (i j : Fin n) :
    sphereIntegral n r (fun x => (if i = j then ∑ k, x k ^ 2 else 0) - x i * x j) =
      if i = j then (n - 1) * r ^ 2 * r ^ (n - 1) * volume.real (ball (0 : EuclideanSpace ℝ (Fin n)) 1) else 0 := by
  have : Nonempty (Fin n) := ⟨0⟩
  unfold sphereIntegral
  have e : ∀ s : Metric.sphere (0 : EuclideanSpace ℝ (Fin n)) 1,
      ((if i = j then ∑ k, (r * s.1 k) ^ 2 else 0) - r * s.1 i * (r * s.1 j)) =
        (if i = j then r ^ 2 else 0) - r ^ 2 * (s.1 i * s.1 j) := by
    intro s
    have h1 : ∑ k, (r * s.1 k) ^ 2 = r ^ 2 := by
      have h2 : ‖s.1‖ ^ 2 = 1 := by
        have := s.2
        rw [mem_sphere_zero_iff_norm] at this
        rw [this, one_pow]
      simp only [EuclideanSpace.norm_sq_eq, Real.norm_eq_abs, sq_abs] at h2
      simp only [mul_pow, ← Finset.mul_sum, h2, mul_one]
    rw [h1]; ring
  simp only [e]
  have hc : Continuous fun s : Metric.sphere (0 : EuclideanSpace ℝ (Fin n)) 1 => s.1 i * s.1 j := by fun_prop
  have hi : Integrable (fun s : Metric.sphere (0 : EuclideanSpace ℝ (Fin n)) 1 => s.1 i * s.1 j)
      (volume : Measure (EuclideanSpace ℝ (Fin n))).toSphere := by
    refine hc.integrable_of_hasCompactSupport ?_
    exact HasCompactSupport.of_compactSpace _
  rw [integral_sub (integrable_const _) (hi.const_mul _), integral_const, integral_const_mul, Ball.sphere_moments i j,
    Measure.toSphere_real_apply_univ, finrank_euclideanSpace, Fintype.card_fin]
  split_ifs
  · simp only [smul_eq_mul]; ring
  · simp

/-- C102 (circles, surface): `surface_area` is the length of the circle, and `Cd_R` the inverse of the mean square distance
of its points to the centre. -/
theorem C102_circle (c : Pos 2 ℝ) (r : ℝ) (hr : 0 < r) (q : Quat ℝ) :
    let S := circle c r q
    sphereMeasure 2 r = circleSurface S ∧
    circleCd S * sphereIntegral 2 r (fun x => x 0 ^ 2 + x 1 ^ 2) = circleSurface S := by
  intro S
  have hb : volume.real (ball (0 : EuclideanSpace ℝ (Fin 2)) 1) = Real.pi := by
    rw [Measure.real, ball2_volume 1 zero_le_one, ENNReal.toReal_ofReal (by positivity)]; ring
  constructor
  · have := (volume : Measure (EuclideanSpace ℝ (Fin 2))).toSphere_real_apply_univ
    rw [finrank_euclideanSpace, Fintype.card_fin, hb, Measure.real] at this
    rw [sphereMeasure, this]
    show _ = 2 * Real.pi * r
    push_cast; ring
  · have h0 := sphere_inertia 2 r 0 0
    have h1 := sphere_inertia 2 r 1 1
    simp only [if_true, Fin.sum_univ_two, hb] at h0 h1
    have e0 : sphereIntegral 2 r (fun x => x 0 ^ 2 + x 1 ^ 2) = 2 * Real.pi * r ^ 3 := by
      have hI : ∀ s : Metric.sphere (0 : EuclideanSpace ℝ (Fin 2)) 1, (r * s.1 0) ^ 2 + (r * s.1 1) ^ 2 = r ^ 2 := by
        intro s
        have h2 : ‖s.1‖ ^ 2 = 1 := by
          have := s.2
          rw [mem_sphere_zero_iff_norm] at this
          rw [this, one_pow]
        simp only [EuclideanSpace.norm_sq_eq, Real.norm_eq_abs, sq_abs, Fin.sum_univ_two] at h2
        linear_combination r ^ 2 * h2
      unfold sphereIntegral
      simp only [hI]
      have := (volume : Measure (EuclideanSpace ℝ (Fin 2))).toSphere_real_apply_univ
      rw [finrank_euclideanSpace, Fintype.card_fin, hb] at this
      rw [integral_const, this]
      simp only [smul_eq_mul]
      push_cast; ring
    rw [e0]
    show 1 / (r * r) * _ = 2 * Real.pi * r
    field_simp

/-- C102 (spheres, surface): `surface_area` is the area of the sphere, and `Cd_R` the inverse of the mean over it of the
inertia tensor about the centre, which is isotropic. -/
theorem C102_sphere (c : Pos 3 ℝ) (r : ℝ) (hr : 0 < r) (q : Quat ℝ) :
    let S := sphere c r q
    sphereMeasure 3 r = sphereSurface S ∧
    ∀ i j, sphereCd S * sphereIntegral 3 r (fun x => (if i = j then ∑ k, x k ^ 2 else 0) - x i * x j) =
      if i = j then sphereSurface S else 0 := by
  intro S
  have hb : volume.real (ball (0 : EuclideanSpace ℝ (Fin 3)) 1) = 4 / 3 * Real.pi := by
    rw [Measure.real, ball3_volume 1 zero_le_one, ENNReal.toReal_ofReal (by positivity)]; ring
  constructor
  · have := (volume : Measure (EuclideanSpace ℝ (Fin 3))).toSphere_real_apply_univ
    rw [finrank_euclideanSpace, Fintype.card_fin, hb, Measure.real] at this
    rw [sphereMeasure, this]
    show _ = 4 * Real.pi * r * r
    push_cast; ring
  · intro i j
    rw [sphere_inertia 3 r i j, hb]
    split_ifs
    · show 1.5 / (r * r) * _ = 4 * Real.pi * r * r
      push_cast
      field_simp
      norm_num
    · simp

example : PlaneQuat (quatZ 1) ∧ (0 : ℝ) < 2 ∧ circleVolume (circle ![1, 2] 2 (quatZ 1)) = 4 * Real.pi := by
  refine ⟨Or.inr ⟨1, rfl⟩, by norm_num, ?_⟩
  show Real.pi * 2 * 2 = _
  ring

end Cafes.Geometry
