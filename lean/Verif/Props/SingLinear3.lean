import Verif.Props.Closing
namespace Cafes.Props
open Cafes Cafes.Sing Cafes.Geometry

/-- The first of two spheres of radius 1/10, at distance 7/10 in the direction (3/5, 4/5, 0), with the velocity `v`; the second
one is at rest. -/
noncomputable def exFirst (v : Pos 3 ℝ) : Ball 3 := ⟨![0, 0, 0], v, 1 / 10⟩
/-- See `exFirst`. -/
noncomputable def exSecond : Ball 3 := ⟨![21 / 50, 28 / 50, 0], 0, 1 / 10⟩

theorem exPair_dist (v : Pos 3 ℝ) : √(distSq (exFirst v).center exSecond.center) = 7 / 10 := by
  rw [Real.sqrt_eq_iff_mul_self_eq_of_pos (by norm_num)]
  norm_num [distSq, Fin.sum_univ_three, exFirst, exSecond, vec3_two]

theorem exPair_axis (v : Pos 3 ℝ) : Spec.axisOf (exFirst v) exSecond = ![3 / 5, 4 / 5, 0] := by
  funext i
  rw [Spec.axisOf, exPair_dist]
  fin_cases i <;> norm_num [exFirst, exSecond, vec3_two]

theorem exPair_sing (v : Pos 3 ℝ) : ∃ S, mkSing3 (exFirst v) exSecond (1 / 100) 4 = some S := by
  refine ⟨_, if_pos ?_⟩
  rw [distance_eq, exPair_dist]
  norm_num [exFirst, exSecond]

/-- C107 fails in space: for two spheres the singular velocity is not additive in the velocity of the first one. The frame
of the pair depends on the velocity, and is not orthonormal for all of them. -/
theorem C107_additive3_refuted : ¬ ∀ (c1 c2 v w : Pos 3 ℝ) (r1 r2 h : ℝ) (R S T : Singularity 3), 0 < h → 0 < r1 → 0 < r2 →
    r1 + r2 < √(distSq c1 c2) → mkSing3 ⟨c1, v + w, r1⟩ ⟨c2, 0, r2⟩ h 4 = some R →
    mkSing3 ⟨c1, v, r1⟩ ⟨c2, 0, r2⟩ h 4 = some S → mkSing3 ⟨c1, w, r1⟩ ⟨c2, 0, r2⟩ h 4 = some T →
    ∀ x, getU3 R x = getU3 S x + getU3 T x := by
  intro H
  set v : Pos 3 ℝ := ![3 / 5, 4 / 5, 0] with hv
  set w : Pos 3 ℝ := ![0, 0, 1] with hw
  obtain ⟨R, hR⟩ := exPair_sing (v + w)
  obtain ⟨S, hS⟩ := exPair_sing v
  obtain ⟨T, hT⟩ := exPair_sing w
  have hgap : ∀ u, (exFirst u).r + exSecond.r < √(distSq (exFirst u).center exSecond.center) := by
    intro u
    rw [exPair_dist]
    norm_num [exFirst, exSecond]
  have hadd := H ![0, 0, 0] ![21 / 50, 28 / 50, 0] v w (1 / 10) (1 / 10) (1 / 100) R S T (by norm_num) (by norm_num) (by norm_num)
    (hgap v) hR hS hT ![18 / 50, 24 / 50, 0]
  have hr1 : ∀ u, 0 < (exFirst u).r := fun u => by norm_num [exFirst]
  have hr2 : 0 < exSecond.r := by norm_num [exSecond]
  have hpole : ∀ u, (Spec.capPoint exSecond.center (fun i => -Spec.axisOf (exFirst u) exSecond i) exSecond.r (fun _ => 0)) =
      ![18 / 50, 24 / 50, 0] := by
    intro u
    rw [(cap_poles (exFirst u) exSecond).2, exPair_axis]
    funext i
    fin_cases i <;> norm_num [exSecond, vec3_two]
  have hz : dot (fun _ : Fin 3 => (0 : ℝ)) (fun _ => 0) = 0 := by simp [dot]
  have hval : ∀ u Q, mkSing3 (exFirst u) exSecond (1 / 100) 4 = some Q → GoodContact ![3 / 5, 4 / 5, 0] u →
      getU3 Q ![18 / 50, 24 / 50, 0] 0 = -(Spec.opening (exFirst u) exSecond / 2 * (3 / 5)) := by
    intro u Q hQ hg
    have hg' : GoodContact (Spec.axisOf (exFirst u) exSecond) (fun i => (exFirst u).velocity i - exSecond.velocity i) := by
      rw [exPair_axis]
      have : (fun i => (exFirst u).velocity i - exSecond.velocity i) = u := by
        funext i
        simp [exFirst, exSecond]
      rw [this]
      exact hg
    have hq := cut_pos 2 constructBase3 (exFirst u) exSecond (1 / 100) 4 (by norm_num) Q hQ
    have h2 := (C75_walls3D (exFirst u) exSecond (hr1 u) hr2 (hgap u) (1 / 100) 4 Q hQ hg' (fun _ => 0) (by simp [dot]) 0).2
    rw [hpole u] at h2
    obtain ⟨c0, c1, c2⟩ := closing_chi_axis hq
    rw [hz, c0, c1, c2, exPair_axis] at h2
    rw [h2]
    simp
    ring
  have hop : ∀ u, Spec.opening (exFirst u) exSecond = -(3 / 5 * u 0 + 4 / 5 * u 1) := by
    intro u
    rw [Spec.opening, exPair_axis]
    simp [dot, Fin.sum_univ_three, exFirst, exSecond]
    ring
  have hSv := hval v S hS (by
    rw [GoodContact, if_pos]
    · left; rfl
    · norm_num [hv, dot, Fin.sum_univ_three, vec3_two])
  have hTv := hval w T hT (by
    rw [GoodContact, if_neg]
    · norm_num [hw, Fin.sum_univ_three, vec3_two]
    · norm_num [hw, dot, Fin.sum_univ_three, vec3_two])
  -- the combined motion: the point is seen out of the zone
  have hRv : getU3 R ![18 / 50, 24 / 50, 0] = 0 := by
    refine ((C59_support3D _ _ _ _ (by norm_num) R hR).2.2 _ ?_).1
    obtain ⟨hb, -, -, -, -, -, hori⟩ := sing_fields 2 constructBase3 _ _ _ _ R hR
    have hcut : R.cutoff = 1 / 10 := by
      have hR2 := hR
      rw [mkSing3, mkSing] at hR2
      split_ifs at hR2
      obtain rfl := Option.some.inj hR2
      show cutoffDist _ _ _ _ _ = _
      rw [C59_cutoff, distance_eq, exPair_dist]
      have e1 : (1 : ℝ) / 10 ≤ 4 * √(2 * (7 / 10 - (exFirst (v + w)).r - exSecond.r) /
          (1 / (exFirst (v + w)).r + 1 / exSecond.r)) := by
        have : 2 * (7 / 10 - (exFirst (v + w)).r - exSecond.r) / (1 / (exFirst (v + w)).r + 1 / exSecond.r) = 1 / 20 := by
          norm_num [exFirst, exSecond]
        rw [this]
        have : (1 / 10 : ℝ) ≤ √(1 / 20) := Real.le_sqrt_of_sq_le (by norm_num)
        linarith
      have e2 : min (exFirst (v + w)).r exSecond.r = 1 / 10 := by norm_num [exFirst, exSecond]
      rw [e2, min_eq_right e1]
      refine max_eq_right ?_
      have : √2 ≤ 2 := by
        rw [Real.sqrt_le_left (by norm_num)]
        norm_num
      linarith
    rw [hcut]
    refine Real.le_sqrt_of_sq_le ?_
    have hq0 : (1 / 10 : ℝ) ^ 2 ≤ posInRef R ![18 / 50, 24 / 50, 0] 0 ^ 2 := by
      have hn : vecDivScal (positionDiff exSecond (exFirst (v + w))) (distance (exFirst (v + w)) exSecond) =
          (![3 / 5, 4 / 5, 0] : Pos 3 ℝ) := by
        rw [← exPair_axis (v + w), ← axisOf_eq]
      have hvd : velocityDiff (exFirst (v + w)) exSecond = ![3 / 5, 4 / 5, 1] := by
        funext i
        fin_cases i <;> norm_num [velocityDiff, exFirst, exSecond, hv, hw, vec3_two]
      have ht : rawTangent ![3 / 5, 4 / 5, 0] ![3 / 5, 4 / 5, 1] = ![6 / 25, 4 / 25, 1] := by
        rw [rawTangent, if_neg (by norm_num [innerProd_eq, dot, Fin.sum_univ_three, vec3_two])]
        funext i
        fin_cases i <;> norm_num [vec3_two]
      have hb0 : (constructBase3 (exFirst (v + w)) exSecond).base 0 =
          vecDivScal ![6 / 25, 4 / 25, 1] (√(677 / 625)) := by
        show vecDivScal (rawTangent (vecDivScal (positionDiff exSecond (exFirst (v + w)))
            (distance (exFirst (v + w)) exSecond)) (velocityDiff (exFirst (v + w)) exSecond)) _ = _
        rw [hn, hvd, ht]
        congr 2
        norm_num [innerProd_eq, dot, Fin.sum_univ_three, vec3_two]
      have hb2 : (constructBase3 (exFirst (v + w)) exSecond).base 2 = ![3 / 5, 4 / 5, 0] := hn
      have ho : R.origin = fun i => (exFirst (v + w)).center i + (exFirst (v + w)).r * (![3 / 5, 4 / 5, 0] : Pos 3 ℝ) i := by
        have hR2 := hR
        rw [mkSing3, mkSing] at hR2
        split_ifs at hR2
        obtain rfl := Option.some.inj hR2
        rw [← hb2]
      have hs : √(677 / 625 : ℝ) ^ 2 = 677 / 625 := Real.sq_sqrt (by norm_num)
      have e : ∀ i, vecDivScal (![6 / 25, 4 / 25, 1] : Pos 3 ℝ) (√(677 / 625)) i = (![6 / 25, 4 / 25, 1] : Pos 3 ℝ) i / √(677 / 625) := by
        intro i
        simp only [vecDivScal, compLoop_apply]
      have : ∀ (q : Pos 3 ℝ), innerProd q (vecDivScal ![6 / 25, 4 / 25, 1] (√(677 / 625))) =
          (q 0 * (6 / 25) + q 1 * (4 / 25) + q 2) / √(677 / 625) := by
        intro q
        rw [innerProd_eq, dot, Fin.sum_univ_three, e, e, e]
        show q 0 * (6 / 25 / √(677 / 625)) + q 1 * (4 / 25 / √(677 / 625)) + q 2 * (1 / √(677 / 625)) = _
        ring
      rw [posInRef, hb, hb0, this, ho, div_pow _ (√(677 / 625)), hs]
      norm_num [exFirst, vec3_two]
    have := sq_nonneg (posInRef R ![18 / 50, 24 / 50, 0] 1)
    linarith
  have h0 := congrFun hadd 0
  rw [hRv, Pi.add_apply, hSv, hTv, hop, hop] at h0
  norm_num [hv, hw] at h0

end Cafes.Props
