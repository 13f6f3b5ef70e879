/-
Volume, surface and second moments of balls and spheres of the Euclidean space.
-/
import Mathlib.MeasureTheory.Measure.Lebesgue.VolumeOfBalls
import Mathlib.MeasureTheory.Constructions.HaarToSphere
import Mathlib.Analysis.SpecialFunctions.Integrals.Basic

namespace Cafes.Ball
open MeasureTheory Metric Set Module

variable {n : ℕ}

local notation "E" n => EuclideanSpace ℝ (Fin n)

/-- Integral over a ball of a function that an isometry changes into another one. -/
theorem ball_comp (T : (E n) ≃ₗᵢ[ℝ] (E n)) (f : (E n) → ℝ) (r : ℝ) :
    ∫ x in ball (0 : E n) r, f (T x) = ∫ x in ball (0 : E n) r, f x := by
  have h := T.measurePreserving.setIntegral_preimage_emb T.toHomeomorph.measurableEmbedding f (ball 0 r)
  rw [← h]
  congr 2
  ext x
  simp

theorem ball_sq (i j : Fin n) (r : ℝ) :
    ∫ x in ball (0 : E n) r, x i ^ 2 = ∫ x in ball (0 : E n) r, x j ^ 2 := by
  rw [← ball_comp (LinearIsometryEquiv.piLpCongrLeft 2 ℝ ℝ (Equiv.swap i j)) (fun x => x j ^ 2)]
  simp

theorem ball_cross (i j : Fin n) (hij : i ≠ j) (r : ℝ) : ∫ x in ball (0 : E n) r, x i * x j = 0 := by
  have h := ball_comp (LinearIsometryEquiv.piLpCongrRight 2 (fun k : Fin n =>
    if k = i then LinearIsometryEquiv.neg ℝ else LinearIsometryEquiv.refl ℝ ℝ)) (fun x => x i * x j) r
  have e : ∀ x : E n, (LinearIsometryEquiv.piLpCongrRight 2 (fun k : Fin n =>
      if k = i then LinearIsometryEquiv.neg ℝ else LinearIsometryEquiv.refl ℝ ℝ) x) i *
      (LinearIsometryEquiv.piLpCongrRight 2 (fun k : Fin n =>
      if k = i then LinearIsometryEquiv.neg ℝ else LinearIsometryEquiv.refl ℝ ℝ) x) j = -(x i * x j) := by
    intro x
    simp [Ne.symm hij]
  simp only [e, integral_neg] at h
  linarith

theorem ball_norm [NeZero n] (r : ℝ) (hr : 0 ≤ r) :
    ∫ x in ball (0 : E n) r, ‖x‖ ^ 2 = n * r ^ 2 / (n + 2) * volume.real (ball (0 : E n) r) := by
  have : Nonempty (Fin n) := ⟨0⟩
  have hn : 1 ≤ n := Nat.one_le_iff_ne_zero.2 (NeZero.ne n)
  have h1 : ∫ x in ball (0 : E n) r, ‖x‖ ^ 2 = ∫ x : E n, (Iio r).indicator (fun y => y ^ 2) ‖x‖ := by
    rw [← integral_indicator measurableSet_ball]
    congr 1
    funext x
    simp [indicator]
  rw [h1, integral_fun_norm_addHaar]
  have h2 : ∫ y in Ioi (0 : ℝ), y ^ (finrank ℝ (E n) - 1) • (Iio r).indicator (fun y => y ^ 2) y =
      r ^ (n + 2) / (n + 2) := by
    have e : ∀ y : ℝ, y ^ (finrank ℝ (E n) - 1) • (Iio r).indicator (fun y => y ^ 2) y =
        (Iio r).indicator (fun y => y ^ (n + 1)) y := by
      intro y
      rw [finrank_euclideanSpace, Fintype.card_fin]
      simp only [indicator]
      split_ifs
      · rw [smul_eq_mul, ← pow_add]; congr 1; omega
      · simp
    simp only [e]
    rw [integral_indicator measurableSet_Iio, Measure.restrict_restrict measurableSet_Iio]
    have : Iio r ∩ Ioi (0 : ℝ) = Ioo 0 r := by ext; simp [and_comm]
    rw [this, ← integral_Ioc_eq_integral_Ioo, ← intervalIntegral.integral_of_le hr, integral_pow]
    simp
    ring
  rw [h2, finrank_euclideanSpace, Fintype.card_fin, Measure.real, Measure.real, Measure.addHaar_ball _ _ hr,
    ENNReal.toReal_mul, finrank_euclideanSpace, Fintype.card_fin, ENNReal.toReal_ofReal (by positivity)]
  simp only [nsmul_eq_mul, smul_eq_mul]
  ring

theorem integrableOn_ball {f : (E n) → ℝ} (hf : Continuous f) (r : ℝ) : IntegrableOn f (ball (0 : E n) r) :=
  (hf.continuousOn.integrableOn_compact (isCompact_closedBall (0 : E n) r)).mono_set ball_subset_closedBall

/-- The second moments of a ball. -/
theorem ball_moments [NeZero n] (i j : Fin n) (r : ℝ) (hr : 0 ≤ r) :
    ∫ x in ball (0 : E n) r, x i * x j = if i = j then r ^ 2 / (n + 2) * volume.real (ball (0 : E n) r) else 0 := by
  split_ifs with h
  · subst h
    have hn : (n : ℝ) ≠ 0 := by exact_mod_cast NeZero.ne n
    have h1 := ball_norm (n := n) r hr
    simp only [EuclideanSpace.norm_sq_eq, Real.norm_eq_abs, sq_abs] at h1
    rw [integral_finset_sum _ fun k _ => integrableOn_ball (by fun_prop) r] at h1
    rw [Finset.sum_congr rfl fun k _ => ball_sq k i r] at h1
    simp only [Finset.sum_const, Finset.card_univ, Fintype.card_fin, nsmul_eq_mul] at h1
    simp only [← sq]
    have h2 : (n : ℝ) * (∫ x in ball (0 : E n) r, x i ^ 2) =
        n * (r ^ 2 / (n + 2) * volume.real (ball (0 : E n) r)) := by rw [h1]; ring
    exact mul_left_cancel₀ hn h2
  · exact ball_cross i j h r

/-- Polar coordinates for a function of the direction times the square of the distance. -/
theorem sphere_moments [NeZero n] (i j : Fin n) :
    ∫ s : sphere (0 : E n) 1, s.1 i * s.1 j ∂(volume : Measure (E n)).toSphere =
      if i = j then volume.real (ball (0 : E n) 1) else 0 := by
  have : Nonempty (Fin n) := ⟨0⟩
  have hn : 1 ≤ n := Nat.one_le_iff_ne_zero.2 (NeZero.ne n)
  have h0 := ball_moments i j 1 zero_le_one
  have h1 : ∫ x in ball (0 : E n) 1, x i * x j =
      (∫ s : sphere (0 : E n) 1, s.1 i * s.1 j ∂(volume : Measure (E n)).toSphere) *
      ∫ y : Ioi (0 : ℝ), (Iio (1 : ℝ)).indicator (fun y => y ^ 2) y.1 ∂.volumeIoiPow (n - 1) := by
    rw [← integral_prod_mul]
    have h2 := (volume : Measure (E n)).measurePreserving_homeomorphUnitSphereProd.integral_comp
        (Homeomorph.measurableEmbedding _) (fun p : sphere (0 : E n) 1 × Ioi (0 : ℝ) =>
          p.1.1 i * p.1.1 j * (Iio (1 : ℝ)).indicator (fun y => y ^ 2) p.2.1)
    rw [finrank_euclideanSpace, Fintype.card_fin] at h2
    have h5 : ∫ x in ball (0 : E n) 1, x i * x j = ∫ x : ({(0)}ᶜ : Set (E n)),
        (ball (0 : E n) 1).indicator (fun x => x i * x j) x.1 ∂((volume : Measure (E n)).comap (↑)) := by
      rw [integral_subtype_comap (measurableSet_singleton _).compl
        ((ball (0 : E n) 1).indicator (fun x : E n => x i * x j)), restrict_compl_singleton,
        integral_indicator measurableSet_ball]
    rw [← h2, h5]
    refine integral_congr_ae (Filter.Eventually.of_forall fun x => ?_)
    have hx : ‖x.1‖ ≠ 0 := norm_ne_zero_iff.2 x.2
    simp only [indicator, mem_ball_zero_iff, homeomorphUnitSphereProd_apply_fst_coe,
      homeomorphUnitSphereProd_apply_snd_coe, mem_Iio, PiLp.smul_apply, smul_eq_mul]
    split_ifs
    · field_simp
    · simp
  have h3 : ∫ y : Ioi (0 : ℝ), (Iio (1 : ℝ)).indicator (fun y => y ^ 2) y.1 ∂.volumeIoiPow (n - 1) = 1 / (n + 2) := by
    simp only [Measure.volumeIoiPow, ENNReal.ofReal]
    rw [integral_withDensity_eq_integral_smul (measurable_subtype_coe.pow_const _).real_toNNReal,
      integral_subtype_comap measurableSet_Ioi
        fun a : ℝ => Real.toNNReal (a ^ (n - 1)) • (Iio (1 : ℝ)).indicator (fun y => y ^ 2) a,
      setIntegral_congr_fun (g := (Iio (1 : ℝ)).indicator (fun y => y ^ (n + 1))) measurableSet_Ioi]
    · rw [integral_indicator measurableSet_Iio, Measure.restrict_restrict measurableSet_Iio]
      have : Iio (1 : ℝ) ∩ Ioi (0 : ℝ) = Ioo 0 1 := by ext; simp [and_comm]
      rw [this, ← integral_Ioc_eq_integral_Ioo, ← intervalIntegral.integral_of_le zero_le_one, integral_pow]
      simp
      ring
    · intro x hx
      show Real.toNNReal (x ^ (n - 1)) • (Iio (1 : ℝ)).indicator (fun y => y ^ 2) x = _
      rw [NNReal.smul_def, Real.coe_toNNReal _ (pow_nonneg (le_of_lt hx) _)]
      simp only [indicator]
      split_ifs
      · rw [smul_eq_mul, ← pow_add]; congr 1; omega
      · simp
  rw [h1, h3] at h0
  have hn2 : (n : ℝ) + 2 ≠ 0 := by positivity
  have h4 : (∫ s : sphere (0 : E n) 1, s.1 i * s.1 j ∂(volume : Measure (E n)).toSphere) =
      (n + 2) * (if i = j then (1 : ℝ) ^ 2 / (n + 2) * volume.real (ball (0 : E n) 1) else 0) := by
    rw [← h0]; field_simp
  rw [h4]
  split_ifs
  · field_simp
  · simp

end Cafes.Ball
