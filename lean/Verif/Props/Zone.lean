import Verif.Props.AddSing
import Verif.Props.Frame
import Verif.Props.Trunc

/-!
C80: the points at which the source of a pair is evaluated. C57: the fourth derivative of the cut-off.
-/

namespace Cafes.Props
open Cafes Cafes.Geometry Cafes.AddSing Cafes.Sing

/-- C80 (zone, 2D): the source of a pair is evaluated exactly at the points outside the two particles whose distance to the line
of the centres (area of the parallelogram over length of the base) is at most the cut-off distance. -/
theorem C80_zone2 (p1 p2 : Ball 2) (hc : p1.center ≠ p2.center) (h alpha : ℝ) (S : Singularity 2)
    (hS : mkSing2 p1 p2 h alpha = some S) (c1 c2 : Pos 2 ℝ → Bool) (hs : Pos 2 ℝ) (x : Pos 2 ℝ) :
    (pair2 S c1 c2 hs).wet x = true ↔ c1 x = false ∧ c2 x = false ∧
      |(p2.center 0 - p1.center 0) * (x 1 - p1.center 1) - (p2.center 1 - p1.center 1) * (x 0 - p1.center 0)| /
        √((p2.center 0 - p1.center 0) ^ 2 + (p2.center 1 - p1.center 1) ^ 2) ≤
      cutoffDist p1.r p2.r (√((p2.center 0 - p1.center 0) ^ 2 + (p2.center 1 - p1.center 1) ^ 2) - p1.r - p2.r) alpha h := by
  have hd : distance p1 p2 = √((p2.center 0 - p1.center 0) ^ 2 + (p2.center 1 - p1.center 1) ^ 2) := by
    rw [distance, innerProd_eq]
    congr 1
    simp only [Geometry.dot, Fin.sum_univ_two, positionDiff]
    ring
  have hpos : 0 < distance p1 p2 := (distance_pos p1 p2 hc).1
  rw [mkSing2, mkSing] at hS
  split_ifs at hS with hlt
  obtain rfl := Option.some.inj hS
  have e : posInRef (⟨1 / p1.r, 1 / p2.r, distance p1 p2 - p1.r - p2.r,
      cutoffDist p1.r p2.r (distance p1 p2 - p1.r - p2.r) alpha h,
      1 / 2 * cutoffDist p1.r p2.r (distance p1 p2 - p1.r - p2.r) alpha h *
        cutoffDist p1.r p2.r (distance p1 p2 - p1.r - p2.r) alpha h, (constructBase2 p1 p2).UN, (constructBase2 p1 p2).UT,
      (constructBase2 p1 p2).base, fun i => p1.center i + p1.r * (constructBase2 p1 p2).base 0 i⟩ : Singularity 2) x 1 =
      ((p2.center 0 - p1.center 0) * (x 1 - p1.center 1) - (p2.center 1 - p1.center 1) * (x 0 - p1.center 0)) /
        distance p1 p2 := by
    have a0 := axis_eq p1 p2 0
    have a1 := axis_eq p1 p2 1
    simp only [posInRef, innerProd_eq, Geometry.dot, Fin.sum_univ_two, constructBase2]
    show (x 0 - (p1.center 0 + p1.r * (vecDivScal (positionDiff p2 p1) (distance p1 p2)) 0)) *
        -((vecDivScal (positionDiff p2 p1) (distance p1 p2)) 1) +
      (x 1 - (p1.center 1 + p1.r * (vecDivScal (positionDiff p2 p1) (distance p1 p2)) 1)) *
        ((vecDivScal (positionDiff p2 p1) (distance p1 p2)) 0) = _
    rw [a0, a1]
    field_simp
    ring
  simp only [pair2, Bool.and_eq_true, Bool.not_eq_true', decide_eq_true_eq, e, abs_div, abs_of_pos hpos, and_assoc]
  rw [hd]

/-- C80 (zone, 3D): the only condition is to be outside the two particles (the fields vanish beyond the cut-off distance,
C59). -/
theorem C80_zone3 (S : Singularity 3) (c1 c2 : Pos 3 ℝ → Bool) (hs x : Pos 3 ℝ) :
    (pair3 S c1 c2 hs).wet x = true ↔ c1 x = false ∧ c2 x = false := by
  simp [pair3]

/-- The hypotheses of `C80_zone2` are met: the point at height 1 of the gap of `exBall1`, `exBall2` is in the zone. -/
example : ∃ S, mkSing2 exBall1 exBall2 1 4 = some S ∧
    (pair2 S (fun _ => false) (fun _ => false) ![1, 1]).wet ![23 / 20, 1] = true := by
  have hc : exBall1.center ≠ exBall2.center := by
    intro h
    have := congrFun h 0
    norm_num [exBall1, exBall2] at this
  have hS : ∃ S, mkSing2 exBall1 exBall2 1 4 = some S := by
    refine ⟨_, if_pos ?_⟩
    rw [exBall_distance]
    norm_num [exBall1, exBall2]
  obtain ⟨S, hS⟩ := hS
  refine ⟨S, hS, (C80_zone2 exBall1 exBall2 hc 1 4 S hS _ _ _ _).2 ⟨rfl, rfl, ?_⟩⟩
  have e : √((exBall2.center 0 - exBall1.center 0) ^ 2 + (exBall2.center 1 - exBall1.center 1) ^ 2) = 23 / 10 := by
    rw [Real.sqrt_eq_iff_mul_self_eq_of_pos (by norm_num)]
    norm_num [exBall1, exBall2]
  rw [e]
  have h1 : |(exBall2.center 0 - exBall1.center 0) * ((![23 / 20, 1] : Pos 2 ℝ) 1 - exBall1.center 1) -
      (exBall2.center 1 - exBall1.center 1) * ((![23 / 20, 1] : Pos 2 ℝ) 0 - exBall1.center 0)| / (23 / 10) = 1 := by
    have : (exBall2.center 0 - exBall1.center 0) * ((![23 / 20, 1] : Pos 2 ℝ) 1 - exBall1.center 1) -
      (exBall2.center 1 - exBall1.center 1) * ((![23 / 20, 1] : Pos 2 ℝ) 0 - exBall1.center 0) = 23 / 10 := by
      simp [exBall1, exBall2]
    rw [this, abs_of_pos (by norm_num)]
    norm_num
  rw [h1]
  have h2 : (1 : ℝ) ≤ √2 * 1 := by
    rw [mul_one]
    exact Real.one_le_sqrt.2 (by norm_num)
  unfold cutoffDist
  dsimp only
  split_ifs with h3
  all_goals linarith

variable {p : ℝ}

theorem d4chi_eq (X : ℝ) : d4chiTrunc X p p =
    if X * X < 2 * p then - d4alphaTrunc ((X * X - p) / p) / p / p / p / p / 2 else 0 := by
  have hx := mul_self_nonneg X
  simp only [d4chiTrunc, sub_self, not_chained, if_false, hx, true_and, ← two_mul]

/-- C57 (fourth derivative): as for `d4alphaTrunc` (C56), `d4chiTrunc` lacks a factor, here `(X² - p)/p`. -/
theorem C57_d4 (hp : 0 < p) (X : ℝ) :
    HasDerivAt (fun X => d3chiTrunc X p p) (2 * X * ((X * X - p) / p * d4chiTrunc X p p)) X := by
  have h := hasDerivAt_glue_sq (b := 2 * p)
    (g := fun s => - d3alphaTrunc ((s - p) / p) / p / p / p / 2)
    (g' := fun s => (s - p) / p * (- d4alphaTrunc ((s - p) / p) / p / p / p / p / 2))
    (fun s => (((((comp_affine p (hasDerivAt_d3alpha _)).neg.div_const p).div_const p).div_const
      p).div_const 2).congr_deriv (by ring))
    (by simp only [end_arg hp, d3alphaTrunc]; norm_num)
    (by simp only [end_arg hp, d4alphaTrunc]; norm_num) X
  have e : (X * X - p) / p * d4chiTrunc X p p = if X * X < 2 * p then
      (X * X - p) / p * (- d4alphaTrunc ((X * X - p) / p) / p / p / p / p / 2) else 0 := by
    rw [d4chi_eq]
    split_ifs
    · rfl
    · rw [mul_zero]
  rw [e]
  exact h.congr_of_eventuallyEq (Filter.Eventually.of_forall fun y => d3chi_eq y)

/-- C57 (fourth derivative): `d4chiTrunc`, which no function of the library calls, is not the derivative of `d3chiTrunc`. -/
theorem C57_d4_refuted : ¬ ∀ p : ℝ, 0 < p → ∀ X, HasDerivAt (fun X => d3chiTrunc X p p) (2 * X * d4chiTrunc X p p) X := by
  intro h
  have h1 := h 1 one_pos (1 / 2)
  have h2 := C57_d4 one_pos (1 / 2)
  have h3 := h1.unique h2
  rw [d4chi_eq] at h3
  norm_num [d4alphaTrunc] at h3

end Cafes.Props
