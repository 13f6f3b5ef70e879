import Verif.Model.Trunc
import Mathlib.Analysis.Calculus.Deriv.Pow
import Mathlib.Analysis.Calculus.Deriv.MeanValue

/-!
C56, C57: the truncation function of the singular fields.
-/

namespace Cafes.Props
open Cafes.Sing Set

/-- Derivative of a polynomial expression: apply the rules, then compare with the stated value. -/
theorem hasDerivAt_alpha (x : ℝ) : HasDerivAt alphaTrunc (dalphaTrunc x) x := by
  have h : ∀ n : ℕ, HasDerivAt (fun y : ℝ => y ^ n) ((n : ℝ) * x ^ (n - 1)) x := fun n =>
    hasDerivAt_pow n x
  have hd := ((((((h 9).div_const 9).sub ((h 7).const_mul (4 / 7))).add
    ((h 5).const_mul (6 / 5))).sub ((h 3).const_mul (4 / 3))).add (h 1)).const_mul (315 / 128)
  refine (hd.congr_of_eventuallyEq ?_).congr_deriv ?_
  · refine Filter.Eventually.of_forall fun y => ?_
    simp only [alphaTrunc, Pi.add_apply, Pi.sub_apply]
    ring
  · simp only [dalphaTrunc]
    push_cast
    ring

theorem hasDerivAt_dalpha (x : ℝ) : HasDerivAt dalphaTrunc (d2alphaTrunc x) x := by
  have h := ((((hasDerivAt_pow 2 x).sub_const 1).pow 4)).const_mul (315 / 128)
  refine (h.congr_of_eventuallyEq ?_).congr_deriv ?_
  · refine Filter.Eventually.of_forall fun y => ?_
    simp only [dalphaTrunc, Pi.pow_apply]
    ring
  · simp only [d2alphaTrunc]
    push_cast
    ring

theorem hasDerivAt_d2alpha (x : ℝ) : HasDerivAt d2alphaTrunc (d3alphaTrunc x) x := by
  have h := ((((hasDerivAt_pow 2 x).sub_const 1).pow 3).mul (hasDerivAt_pow 1 x)).const_mul
    (2520 / 128)
  refine (h.congr_of_eventuallyEq ?_).congr_deriv ?_
  · refine Filter.Eventually.of_forall fun y => ?_
    simp only [d2alphaTrunc, Pi.pow_apply, Pi.mul_apply]
    ring
  · simp only [d3alphaTrunc, Pi.pow_apply]
    push_cast
    ring

theorem hasDerivAt_d3alpha (x : ℝ) : HasDerivAt d3alphaTrunc (x * d4alphaTrunc x) x := by
  have h := ((((hasDerivAt_pow 2 x).sub_const 1).pow 2).mul
    (((hasDerivAt_pow 2 x).const_mul 7).sub_const 1)).const_mul (2520 / 128)
  refine (h.congr_of_eventuallyEq ?_).congr_deriv ?_
  · refine Filter.Eventually.of_forall fun y => ?_
    simp only [d3alphaTrunc, Pi.pow_apply, Pi.mul_apply]
    ring
  · simp only [d4alphaTrunc, Pi.pow_apply]
    push_cast
    ring

/-- C56: `alphaTrunc` is odd, goes from -1 to 1 and is strictly increasing on `[-1, 1]`. -/
theorem C56_shape : (∀ x, alphaTrunc (-x) = - alphaTrunc x) ∧ alphaTrunc (-1) = -1 ∧
    alphaTrunc 1 = 1 ∧ StrictMonoOn alphaTrunc (Icc (-1) 1) := by
  refine ⟨fun x => ?_, ?_, ?_, ?_⟩
  · simp only [alphaTrunc]; ring
  · simp only [alphaTrunc]; norm_num
  · simp only [alphaTrunc]; norm_num
  · refine strictMonoOn_of_deriv_pos (convex_Icc _ _) ?_ ?_
    · exact fun x _ => (hasDerivAt_alpha x).continuousAt.continuousWithinAt
    · intro x hx
      rw [interior_Icc] at hx
      rw [(hasDerivAt_alpha x).deriv]
      have : x * x - 1 < 0 := by nlinarith [hx.1, hx.2]
      have h2 : 0 < (x * x - 1) * (x * x - 1) := mul_pos_of_neg_of_neg this this
      simp only [dalphaTrunc]
      positivity

/-- C56: `dalphaTrunc`, `d2alphaTrunc`, `d3alphaTrunc` are the successive derivatives of
`alphaTrunc`, everywhere, and the fourth derivative is the argument times `d4alphaTrunc` (the coded
function alone is not the fourth derivative, see `C56_d4_refuted`). -/
theorem C56_derivatives (x : ℝ) :
    HasDerivAt alphaTrunc (dalphaTrunc x) x ∧ HasDerivAt dalphaTrunc (d2alphaTrunc x) x ∧
    HasDerivAt d2alphaTrunc (d3alphaTrunc x) x ∧
    HasDerivAt d3alphaTrunc (x * d4alphaTrunc x) x :=
  ⟨hasDerivAt_alpha x, hasDerivAt_dalpha x, hasDerivAt_d2alpha x, hasDerivAt_d3alpha x⟩

/-- C56 fails for `d4alphaTrunc`: it is the derivative of `d3alphaTrunc` only at the points where
`(1 - x) d4alphaTrunc x = 0`, for instance not at the origin. -/
theorem C56_d4_refuted : ¬ ∀ x, HasDerivAt d3alphaTrunc (d4alphaTrunc x) x := by
  intro h
  have := (h 0).unique (hasDerivAt_d3alpha 0)
  simp only [d4alphaTrunc] at this
  norm_num at this

/-- Gluing a function that vanishes with its derivative at `b` with zero. -/
theorem hasDerivAt_glue {g g' : ℝ → ℝ} {b : ℝ} (hg : ∀ s, HasDerivAt g (g' s) s)
    (h0 : g b = 0) (h1 : g' b = 0) (s : ℝ) :
    HasDerivAt (fun s => if s < b then g s else 0) (if s < b then g' s else 0) s := by
  rcases lt_trichotomy s b with h | h | h
  · rw [if_pos h]
    refine (hg s).congr_of_eventuallyEq ?_
    filter_upwards [Iio_mem_nhds h] with y hy
    exact if_pos hy
  · subst h
    rw [if_neg (lt_irrefl s)]
    have hl : HasDerivWithinAt (fun y => if y < s then g y else 0) 0 (Iic s) s := by
      have := (hg s).hasDerivWithinAt (s := Iic s)
      rw [h1] at this
      refine this.congr ?_ ?_
      · intro y hy
        rcases eq_or_lt_of_le (show y ≤ s from hy) with e | e
        · rw [if_neg (by rw [e]; exact lt_irrefl _), e, h0]
        · rw [if_pos e]
      · rw [if_neg (lt_irrefl s), h0]
    have hr : HasDerivWithinAt (fun y => if y < s then g y else 0) 0 (Ici s) s := by
      refine (hasDerivWithinAt_const s (Ici s) (0 : ℝ)).congr ?_ ?_
      · intro y hy
        rw [if_neg (not_lt.2 hy)]
      · rw [if_neg (lt_irrefl s)]
    have := hl.union hr
    rw [Iic_union_Ici] at this
    exact hasDerivWithinAt_univ.1 this
  · rw [if_neg (not_lt.2 h.le)]
    refine (hasDerivAt_const s (0 : ℝ)).congr_of_eventuallyEq ?_
    filter_upwards [Ioi_mem_nhds h] with y hy
    rw [if_neg (not_lt.2 (le_of_lt hy))]

theorem hasDerivAt_glue_sq {g g' : ℝ → ℝ} {b : ℝ} (hg : ∀ s, HasDerivAt g (g' s) s)
    (h0 : g b = 0) (h1 : g' b = 0) (X : ℝ) :
    HasDerivAt (fun X => if X * X < b then g (X * X) else 0)
      (2 * X * (if X * X < b then g' (X * X) else 0)) X := by
  have hq : HasDerivAt (fun X : ℝ => X * X) (1 * X + X * 1) X :=
    (hasDerivAt_id' X).mul (hasDerivAt_id' X)
  have h := HasDerivAt.comp (h := fun X : ℝ => X * X) X (hasDerivAt_glue hg h0 h1 (X * X)) hq
  refine h.congr_deriv ?_
  ring

theorem not_chained (x : ℝ) : ¬ ChainedLess x 0 := by
  unfold ChainedLess
  split_ifs <;> norm_num

section
variable {p : ℝ}

/-- With `l = eps = p`, as in every call of the singularity class, the tests of the cut-off
functions reduce to `X² < 2p`. -/
theorem chi_eq (_hp : 0 < p) (X : ℝ) :
    chiTrunc X p p = if X * X < 2 * p then 1 / 2 * (1 - alphaTrunc ((X * X - p) / p)) else 0 := by
  have hx := mul_self_nonneg X
  simp only [chiTrunc, sub_self, not_chained, if_false, hx, true_and, ← two_mul]

theorem dchi_eq (X : ℝ) : dchiTrunc X p p =
    if X * X < 2 * p then - dalphaTrunc ((X * X - p) / p) / p / 2 else 0 := by
  have hx := mul_self_nonneg X
  simp only [dchiTrunc, sub_self, not_chained, if_false, hx, true_and, ← two_mul]

theorem d2chi_eq (X : ℝ) : d2chiTrunc X p p =
    if X * X < 2 * p then - d2alphaTrunc ((X * X - p) / p) / p / p / 2 else 0 := by
  have hx := mul_self_nonneg X
  simp only [d2chiTrunc, sub_self, not_chained, if_false, hx, true_and, ← two_mul]

theorem d3chi_eq (X : ℝ) : d3chiTrunc X p p =
    if X * X < 2 * p then - d3alphaTrunc ((X * X - p) / p) / p / p / p / 2 else 0 := by
  have hx := mul_self_nonneg X
  simp only [d3chiTrunc, sub_self, not_chained, if_false, hx, true_and, ← two_mul]

theorem comp_affine {f : ℝ → ℝ} {f' s : ℝ} (p : ℝ) (h : HasDerivAt f f' ((s - p) / p)) :
    HasDerivAt (fun s => f ((s - p) / p)) (f' / p) s := by
  have := h.comp s (((hasDerivAt_id' s).sub_const p).div_const p)
  exact this.congr_deriv (by ring)

theorem end_arg (hp : 0 < p) : (2 * p - p) / p = 1 := by
  field_simp
  ring

theorem hasDerivAt_chi (hp : 0 < p) (X : ℝ) :
    HasDerivAt (fun X => chiTrunc X p p) (2 * X * dchiTrunc X p p) X := by
  have h := hasDerivAt_glue_sq (b := 2 * p) (g := fun s => 1 / 2 * (1 - alphaTrunc ((s - p) / p)))
    (g' := fun s => - dalphaTrunc ((s - p) / p) / p / 2)
    (fun s => (((comp_affine p (hasDerivAt_alpha _)).const_sub 1).const_mul (1 / 2)).congr_deriv
      (by ring))
    (by simp only [end_arg hp, C56_shape.2.2.1]; norm_num)
    (by simp only [end_arg hp, dalphaTrunc]; norm_num) X
  rw [dchi_eq]
  refine h.congr_of_eventuallyEq (Filter.Eventually.of_forall fun y => chi_eq hp y)

theorem hasDerivAt_dchi (hp : 0 < p) (X : ℝ) :
    HasDerivAt (fun X => dchiTrunc X p p) (2 * X * d2chiTrunc X p p) X := by
  have h := hasDerivAt_glue_sq (b := 2 * p) (g := fun s => - dalphaTrunc ((s - p) / p) / p / 2)
    (g' := fun s => - d2alphaTrunc ((s - p) / p) / p / p / 2)
    (fun s => (((comp_affine p (hasDerivAt_dalpha _)).neg.div_const p).div_const 2).congr_deriv
      (by ring))
    (by simp only [end_arg hp, dalphaTrunc]; norm_num)
    (by simp only [end_arg hp, d2alphaTrunc]; norm_num) X
  rw [d2chi_eq]
  refine h.congr_of_eventuallyEq (Filter.Eventually.of_forall fun y => dchi_eq y)

theorem hasDerivAt_d2chi (hp : 0 < p) (X : ℝ) :
    HasDerivAt (fun X => d2chiTrunc X p p) (2 * X * d3chiTrunc X p p) X := by
  have h := hasDerivAt_glue_sq (b := 2 * p)
    (g := fun s => - d2alphaTrunc ((s - p) / p) / p / p / 2)
    (g' := fun s => - d3alphaTrunc ((s - p) / p) / p / p / p / 2)
    (fun s => ((((comp_affine p (hasDerivAt_d2alpha _)).neg.div_const p).div_const
      p).div_const 2).congr_deriv (by ring))
    (by simp only [end_arg hp, d2alphaTrunc]; norm_num)
    (by simp only [end_arg hp, d3alphaTrunc]; norm_num) X
  rw [d3chi_eq]
  refine h.congr_of_eventuallyEq (Filter.Eventually.of_forall fun y => d2chi_eq y)

/-- C57: with `l = eps` (every call made by the library), the cut-off is 1 on the axis,
0 from `X² = l + eps` on, between 0 and 1, and non increasing with the distance to the axis.
`C57_exact` settles the other parameters. -/
theorem C57_values (hp : 0 < p) :
    (∀ X, X ^ 2 ≤ p - p → chiTrunc X p p = 1) ∧ (∀ X, p + p ≤ X ^ 2 → chiTrunc X p p = 0) ∧
    (∀ X, 0 ≤ chiTrunc X p p ∧ chiTrunc X p p ≤ 1) ∧
    (∀ X Y, |X| ≤ |Y| → chiTrunc Y p p ≤ chiTrunc X p p) := by
  have harg : ∀ X : ℝ, X * X < 2 * p → (X * X - p) / p ∈ Icc (-1 : ℝ) 1 := by
    intro X hX
    have := mul_self_nonneg X
    constructor
    · rw [le_div_iff₀ hp]; linarith
    · rw [div_le_iff₀ hp]; linarith
  have hb : ∀ y ∈ Icc (-1 : ℝ) 1, -1 ≤ alphaTrunc y ∧ alphaTrunc y ≤ 1 := by
    intro y hy
    have hm := C56_shape.2.2.2.monotoneOn
    constructor
    · rw [← C56_shape.2.1]; exact hm ⟨le_refl _, by norm_num⟩ hy hy.1
    · rw [← C56_shape.2.2.1]; exact hm hy ⟨by norm_num, le_refl _⟩ hy.2
  have hrange : ∀ X, 0 ≤ chiTrunc X p p ∧ chiTrunc X p p ≤ 1 := by
    intro X
    rw [chi_eq hp]
    split_ifs with h
    · have := hb _ (harg X h)
      constructor <;> linarith [this.1, this.2]
    · norm_num
  refine ⟨?_, ?_, hrange, ?_⟩
  · intro X hX
    have h0 : X * X = 0 := le_antisymm (by nlinarith) (mul_self_nonneg X)
    rw [chi_eq hp, h0, if_pos (by linarith)]
    have : (0 - p) / p = -1 := by field_simp; ring
    rw [this, C56_shape.2.1]
    norm_num
  · intro X hX
    rw [chi_eq hp, if_neg (by nlinarith)]
  · intro X Y hXY
    have hsq : X * X ≤ Y * Y := by
      have := sq_le_sq.2 hXY
      nlinarith
    by_cases hY : Y * Y < 2 * p
    · have hX : X * X < 2 * p := lt_of_le_of_lt hsq hY
      rw [chi_eq hp, chi_eq hp, if_pos hY, if_pos hX]
      have : alphaTrunc ((X * X - p) / p) ≤ alphaTrunc ((Y * Y - p) / p) := by
        refine C56_shape.2.2.2.monotoneOn (harg X hX) (harg Y hY) ?_
        exact div_le_div_of_nonneg_right (by linarith) hp.le
      linarith
    · have : chiTrunc Y p p = 0 := by rw [chi_eq hp, if_neg hY]
      rw [this]
      exact (hrange X).1

/-- C57: with `l = eps`, `dchiTrunc`, `d2chiTrunc`, `d3chiTrunc` are the successive
derivatives of the cut-off with respect to the squared distance, i.e. the derivative with respect
to `X` is `2X` times the next one; this holds at every `X`, including where the cut-off ends. -/
theorem C57_derivatives (hp : 0 < p) (X : ℝ) :
    HasDerivAt (fun X => chiTrunc X p p) (2 * X * dchiTrunc X p p) X ∧
    HasDerivAt (fun X => dchiTrunc X p p) (2 * X * d2chiTrunc X p p) X ∧
    HasDerivAt (fun X => d2chiTrunc X p p) (2 * X * d3chiTrunc X p p) X :=
  ⟨hasDerivAt_chi hp X, hasDerivAt_dchi hp X, hasDerivAt_d2chi hp X⟩

/-- The hypothesis is met, and the cut-off is not constant. -/
example : chiTrunc 0 1 1 = 1 ∧ chiTrunc 1 1 1 = 1 / 2 ∧ chiTrunc 2 1 1 = 0 := by
  refine ⟨?_, ?_, ?_⟩ <;> rw [chi_eq one_pos] <;> norm_num [alphaTrunc]

end

/-- C57 fails when `l > eps`: the test `0<=X2<l-eps` compares a truth value with `l-eps`. For
`l = 1`, `eps = 1/2` the cut-off is 0 on the axis; for `l = 3`, `eps = 1` it is 1 everywhere, and its
"derivative" is 1. -/
theorem C57_refuted :
    (¬ ∀ X l eps : ℝ, 0 < eps → eps ≤ l → X ^ 2 ≤ l - eps → chiTrunc X l eps = 1) ∧
    (¬ ∀ X l eps : ℝ, 0 < eps → eps ≤ l → l + eps ≤ X ^ 2 → chiTrunc X l eps = 0) ∧
    (¬ ∀ X l eps : ℝ, 0 < eps → eps ≤ l →
      HasDerivAt (fun X => chiTrunc X l eps) (2 * X * dchiTrunc X l eps) X) := by
  have h3 : ∀ X : ℝ, chiTrunc X 3 1 = 1 := by
    intro X
    simp only [chiTrunc]
    rw [if_pos]
    unfold ChainedLess
    rw [if_pos (mul_self_nonneg X)]
    norm_num
  refine ⟨fun h => ?_, fun h => ?_, fun h => ?_⟩
  · have := h 0 1 (1 / 2) (by norm_num) (by norm_num) (by norm_num)
    simp only [chiTrunc, ChainedLess] at this
    norm_num at this
  · have := h 2 3 1 (by norm_num) (by norm_num) (by norm_num)
    rw [h3] at this
    norm_num at this
  · have := (h 1 3 1 (by norm_num) (by norm_num))
    rw [show (fun X => chiTrunc X 3 1) = fun _ => (1 : ℝ) from funext h3] at this
    have h2 := this.unique (hasDerivAt_const (1 : ℝ) (1 : ℝ))
    simp only [dchiTrunc, ChainedLess] at h2
    norm_num at h2

open Classical in
/-- The cut-off the documentation of the `chi` family describes: 1 up to `X² = l - eps`, the smooth
step between `l - eps` and `l + eps`, 0 beyond. -/
noncomputable def Spec.cutoff (X l eps : ℝ) : ℝ :=
  if X ^ 2 < l - eps then 1
  else if X ^ 2 < l + eps then (1 - alphaTrunc ((X ^ 2 - l) / eps)) / 2 else 0

/-- C57, exactly, for all parameters allowed by the assertion: the coded function is the constant 1
when `l - eps > 1`; otherwise it is 0 for `X² < l - eps`, the smooth step up to `l + eps`, and 0
beyond. It is the intended cut-off at all points if and only if `l = eps`. -/
theorem C57_exact (l eps : ℝ) (he : 0 < eps) (hl : eps ≤ l) :
    (1 < l - eps → ∀ X, chiTrunc X l eps = 1) ∧
    (l - eps ≤ 1 → ∀ X, (X ^ 2 < l - eps → chiTrunc X l eps = 0) ∧
      (l - eps ≤ X ^ 2 → chiTrunc X l eps = Spec.cutoff X l eps)) ∧
    ((∀ X, chiTrunc X l eps = Spec.cutoff X l eps) ↔ l = eps) := by
  have h1 : 1 < l - eps → ∀ X, chiTrunc X l eps = 1 := by
    intro h X
    simp only [chiTrunc]
    rw [if_pos]
    unfold ChainedLess
    rwa [if_pos (mul_self_nonneg X)]
  have h2 : l - eps ≤ 1 → ∀ X, (X ^ 2 < l - eps → chiTrunc X l eps = 0) ∧
      (l - eps ≤ X ^ 2 → chiTrunc X l eps = Spec.cutoff X l eps) := by
    intro h X
    have hc : ¬ ChainedLess (X * X) (l - eps) := by
      unfold ChainedLess
      rw [if_pos (mul_self_nonneg X)]
      exact not_lt.2 h
    have hX : X ^ 2 = X * X := sq X
    simp only [chiTrunc, Spec.cutoff, hX]
    rw [if_neg hc]
    constructor
    · intro hx
      rw [if_neg (fun h => absurd h.1 (not_le.2 hx))]
    · intro hx
      rw [if_neg (c := X * X < l - eps) (not_lt.2 hx)]
      by_cases h3 : X * X < l + eps
      · rw [if_pos ⟨hx, h3⟩, if_pos h3]
        ring
      · rw [if_neg (fun h => h3 h.2), if_neg h3]
  refine ⟨h1, h2, fun h => ?_, ?_⟩
  · by_contra hne
    have hlt : 0 < l - eps := by
      rcases lt_or_eq_of_le hl with h' | h'
      · linarith
      · exact absurd h'.symm hne
    rcases lt_or_ge 1 (l - eps) with hb | hb
    · have hs : Real.sqrt (l + eps) ^ 2 = l + eps := Real.sq_sqrt (by linarith)
      have := h (Real.sqrt (l + eps))
      rw [h1 hb] at this
      simp only [Spec.cutoff, hs] at this
      rw [if_neg (by linarith), if_neg (lt_irrefl _)] at this
      exact one_ne_zero this
    · have := h 0
      rw [(h2 hb 0).1 (by simpa using hlt)] at this
      simp only [Spec.cutoff] at this
      rw [if_pos (by simpa using hlt)] at this
      exact zero_ne_one this
  · rintro rfl X
    exact (h2 (by simp) X).2 (by simpa using sq_nonneg X)

/-- All three cases occur. -/
example : (0 : ℝ) < 1 ∧ (1 : ℝ) ≤ 3 ∧ 1 < (3 : ℝ) - 1 ∧ (1 / 2 : ℝ) ≤ 1 ∧ (1 : ℝ) - 1 / 2 ≤ 1 := by
  norm_num

end Cafes.Props
