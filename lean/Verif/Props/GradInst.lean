import Verif.Props.GradFrame
import Verif.Props.SingNormal2D
import Verif.Props.SingNormal3D
import Mathlib.Analysis.SpecialFunctions.Sqrt

/-!
C63 for the fields of the code: the tensor of `get_grad_u_sing` is the gradient of the velocity of
`get_u_sing` in space off the line of centres; on that line, and in the plane, what it is exactly.
-/

set_option linter.unusedVariables false
set_option linter.flexible false
namespace Cafes.Props
open Cafes Cafes.Geometry Cafes.Sing

section
variable {E : Type} [NormedAddCommGroup E] [NormedSpace ℝ E] {f g : E → ℝ} {x : E}

theorem dd_const (c : ℝ) : DifferentiableAt ℝ (fun _ : E => c) x := differentiableAt_const c
theorem dd_add (h : DifferentiableAt ℝ f x) (h2 : DifferentiableAt ℝ g x) :
    DifferentiableAt ℝ (fun x => f x + g x) x := h.add h2
theorem dd_sub (h : DifferentiableAt ℝ f x) (h2 : DifferentiableAt ℝ g x) :
    DifferentiableAt ℝ (fun x => f x - g x) x := h.sub h2
theorem dd_neg (h : DifferentiableAt ℝ f x) : DifferentiableAt ℝ (fun x => - f x) x := h.neg
theorem dd_mul (h : DifferentiableAt ℝ f x) (h2 : DifferentiableAt ℝ g x) :
    DifferentiableAt ℝ (fun x => f x * g x) x := h.mul h2
theorem dd_pow (n : ℕ) (h : DifferentiableAt ℝ f x) :
    DifferentiableAt ℝ (fun x => f x ^ n) x := h.pow n
theorem dd_divc (c : ℝ) (h : DifferentiableAt ℝ f x) :
    DifferentiableAt ℝ (fun x => f x / c) x := by
  simp only [div_eq_mul_inv]; exact h.mul (differentiableAt_const _)
theorem dd_div (h : DifferentiableAt ℝ f x) (h2 : DifferentiableAt ℝ g x) (h0 : g x ≠ 0) :
    DifferentiableAt ℝ (fun x => f x / g x) x := by
  have e : DifferentiableAt ℝ (fun x => (g x)⁻¹) x :=
    (hasDerivAt_inv h0).differentiableAt.comp x h2
  simp only [div_eq_mul_inv]; exact h.mul e

end

/-- structural differentiability -/
macro "dd" : tactic => `(tactic| repeat' (first
  | with_reducible apply dd_const
  | with_reducible assumption
  | with_reducible apply dd_add
  | with_reducible apply dd_sub
  | with_reducible apply dd_mul
  | with_reducible apply dd_divc
  | with_reducible apply dd_div
  | with_reducible apply dd_neg
  | with_reducible apply dd_pow))


/-- A function of the distance to the axis which is a differentiable function of its square is
differentiable. -/
theorem dd_rad {c G G' : ℝ → ℝ} (hG : ∀ s, HasDerivAt G (G' s) s) (e : ∀ s, 0 ≤ s → c √s = G s)
    (q : Pos 3 ℝ) : DifferentiableAt ℝ (fun Y : Pos 3 ℝ => c √(Y 0 * Y 0 + Y 1 * Y 1)) q := by
  have e0 : DifferentiableAt ℝ (fun Y : Pos 3 ℝ => Y 0) q := differentiableAt_apply 0 q
  have e1 : DifferentiableAt ℝ (fun Y : Pos 3 ℝ => Y 1) q := differentiableAt_apply 1 q
  have hs : DifferentiableAt ℝ (fun Y : Pos 3 ℝ => Y 0 * Y 0 + Y 1 * Y 1) q := by dd
  have := (hG _).differentiableAt.comp q hs
  rwa [show (fun Y : Pos 3 ℝ => c √(Y 0 * Y 0 + Y 1 * Y 1)) =
    G ∘ fun Y : Pos 3 ℝ => Y 0 * Y 0 + Y 1 * Y 1 from funext fun Y => e _ (sq_sum_nonneg _ _)]

theorem dd_chi {p : ℝ} (hp : 0 < p) (q : Pos 3 ℝ) :
    DifferentiableAt ℝ (fun Y : Pos 3 ℝ => chiTrunc √(Y 0 * Y 0 + Y 1 * Y 1) p p) q :=
  dd_rad (c := fun r => chiTrunc r p p) (hasDerivAt_glue (b := 2 * p)
    (g := fun s => 1 / 2 * (1 - alphaTrunc ((s - p) / p)))
    (g' := fun s => - dalphaTrunc ((s - p) / p) / p / 2)
    (fun s => (((comp_affine p (hasDerivAt_alpha _)).const_sub 1).const_mul (1 / 2)).congr_deriv
      (by ring))
    (by simp only [end_arg hp, C56_shape.2.2.1]; norm_num)
    (by simp only [end_arg hp, dalphaTrunc]; norm_num)) (fun s h => chi_rad hp h) q

theorem dd_dchi {p : ℝ} (hp : 0 < p) (q : Pos 3 ℝ) :
    DifferentiableAt ℝ (fun Y : Pos 3 ℝ => dchiTrunc √(Y 0 * Y 0 + Y 1 * Y 1) p p) q :=
  dd_rad (c := fun r => dchiTrunc r p p) (hasDerivAt_glue (b := 2 * p)
    (g := fun s => - dalphaTrunc ((s - p) / p) / p / 2)
    (g' := fun s => - d2alphaTrunc ((s - p) / p) / p / p / 2)
    (fun s => (((comp_affine p (hasDerivAt_dalpha _)).neg.div_const p).div_const 2).congr_deriv
      (by ring))
    (by simp only [end_arg hp, dalphaTrunc]; norm_num)
    (by simp only [end_arg hp, d2alphaTrunc]; norm_num)) (fun s h => dchi_rad h) q

theorem dd_d2chi {p : ℝ} (hp : 0 < p) (q : Pos 3 ℝ) :
    DifferentiableAt ℝ (fun Y : Pos 3 ℝ => d2chiTrunc √(Y 0 * Y 0 + Y 1 * Y 1) p p) q :=
  dd_rad (c := fun r => d2chiTrunc r p p) (hasDerivAt_glue (b := 2 * p)
    (g := fun s => - d2alphaTrunc ((s - p) / p) / p / p / 2)
    (g' := fun s => - d3alphaTrunc ((s - p) / p) / p / p / p / 2)
    (fun s => ((((comp_affine p (hasDerivAt_d2alpha _)).neg.div_const p).div_const
      p).div_const 2).congr_deriv (by ring))
    (by simp only [end_arg hp, d2alphaTrunc]; norm_num)
    (by simp only [end_arg hp, d3alphaTrunc]; norm_num)) (fun s h => d2chi_rad h) q

set_option maxHeartbeats 4000000 in
/-- The axial component is differentiable. -/
theorem uz3_differentiable {p : ℝ} (hp : 0 < p) (H M a U : ℝ) (hH : 0 < H) (hM : 0 < M) (ha : 0 < a)
    (q : Pos 3 ℝ) :
    DifferentiableAt ℝ (fun Y : Pos 3 ℝ => uz_sing_normalMvt3D Y H M a U p p) q := by
  have e0 : DifferentiableAt ℝ (fun Y : Pos 3 ℝ => Y 0) q := differentiableAt_apply 0 q
  have e1 : DifferentiableAt ℝ (fun Y : Pos 3 ℝ => Y 1) q := differentiableAt_apply 1 q
  have e2 : DifferentiableAt ℝ (fun Y : Pos 3 ℝ => Y 2) q := differentiableAt_apply 2 q
  have c0 := dd_chi hp q
  have c1 := dd_dchi hp q
  have c2 := dd_d2chi hp q
  have hs := sq_sum_nonneg (q 0) (q 1)
  have ht : H * (q 0 * q 0 + q 1 * q 1) + M * (q 0 * q 0 + q 1 * q 1) + 2 * a ≠ 0 := by positivity
  have es : DifferentiableAt ℝ (fun Y : Pos 3 ℝ => Y 0 * Y 0 + Y 1 * Y 1) q := by dd
  have ew : DifferentiableAt ℝ (fun Y : Pos 3 ℝ => 1 /
      ((H * (Y 0 * Y 0 + Y 1 * Y 1) + M * (Y 0 * Y 0 + Y 1 * Y 1) + 2 * a) ^ 2 *
       (H * (Y 0 * Y 0 + Y 1 * Y 1) + M * (Y 0 * Y 0 + Y 1 * Y 1) + 2 * a) ^ 2)) q := by
    dd
    exact mul_ne_zero (pow_ne_zero _ ht) (pow_ne_zero _ ht)
  simp only [uz_sing_normalMvt3D]
  dd

theorem vec3_eta (Y : Pos 3 ℝ) : Y = ![Y 0, Y 1, Y 2] := by
  funext i
  fin_cases i <;> rfl

/-- The components across the axis are differentiable. -/
theorem uxy3_differentiable {p : ℝ} (hp : 0 < p) (H M a U : ℝ) (hH : 0 < H) (hM : 0 < M) (ha : 0 < a)
    (q : Pos 3 ℝ) :
    DifferentiableAt ℝ (fun Y : Pos 3 ℝ => ux_sing_normalMvt3D Y H M a U p p) q ∧
    DifferentiableAt ℝ (fun Y : Pos 3 ℝ => uy_sing_normalMvt3D Y H M a U p p) q := by
  have e0 : DifferentiableAt ℝ (fun Y : Pos 3 ℝ => Y 0) q := differentiableAt_apply 0 q
  have e1 : DifferentiableAt ℝ (fun Y : Pos 3 ℝ => Y 1) q := differentiableAt_apply 1 q
  have e2 : DifferentiableAt ℝ (fun Y : Pos 3 ℝ => Y 2) q := differentiableAt_apply 2 q
  have c0 := dd_chi hp q
  have c1 := dd_dchi hp q
  have hs := sq_sum_nonneg (q 0) (q 1)
  have ht : H * (q 0 * q 0 + q 1 * q 1) + M * (q 0 * q 0 + q 1 * q 1) + 2 * a ≠ 0 := by positivity
  have es : DifferentiableAt ℝ (fun Y : Pos 3 ℝ => Y 0 * Y 0 + Y 1 * Y 1) q := by dd
  have eg : DifferentiableAt ℝ (fun Y : Pos 3 ℝ => radG H M a U (Y 2) (Y 0 * Y 0 + Y 1 * Y 1)
      (chiTrunc √(Y 0 * Y 0 + Y 1 * Y 1) p p) (dchiTrunc √(Y 0 * Y 0 + Y 1 * Y 1) p p)) q := by
    simp only [radG]
    dd
    · exact pow_ne_zero 2 ht
    · exact pow_ne_zero 3 ht
  constructor
  · have : (fun Y : Pos 3 ℝ => ux_sing_normalMvt3D Y H M a U p p) = fun Y => Y 0 *
        radG H M a U (Y 2) (Y 0 * Y 0 + Y 1 * Y 1)
      (chiTrunc √(Y 0 * Y 0 + Y 1 * Y 1) p p) (dchiTrunc √(Y 0 * Y 0 + Y 1 * Y 1) p p) := by
      funext Y
      conv_lhs => rw [vec3_eta Y]
      rw [ux_radG_all _ _ _ _ _ _ _ _ _ hH hM ha]
    rw [this]
    exact dd_mul e0 eg
  · have : (fun Y : Pos 3 ℝ => uy_sing_normalMvt3D Y H M a U p p) = fun Y => Y 1 *
        radG H M a U (Y 2) (Y 0 * Y 0 + Y 1 * Y 1)
      (chiTrunc √(Y 0 * Y 0 + Y 1 * Y 1) p p) (dchiTrunc √(Y 0 * Y 0 + Y 1 * Y 1) p p) := by
      funext Y
      conv_lhs => rw [vec3_eta Y]
      rw [uy_radG_all _ _ _ _ _ _ _ _ _ hH hM ha]
    rw [this]
    exact dd_mul e1 eg

theorem moved3 (q : Pos 3 ℝ) (t : ℝ) : moved q 0 t = ![t, q 1, q 2] ∧ moved q 1 t = ![q 0, t, q 2] ∧
    moved q 2 t = ![q 0, q 1, t] := by
  refine ⟨?_, ?_, ?_⟩ <;> funext i <;> fin_cases i <;> simp [moved, Function.update]

/-- What `get_grad_u_sing_ref` misses on the axis: `∂x ux = ∂y uy` there. -/
noncomputable def Spec.axisTerm (S : Singularity 3) (q : Pos 3 ℝ) : ℝ :=
  if q 0 = 0 ∧ q 1 = 0 then -3 * S.UN * q 2 * (S.contact - q 2) / S.contact ^ 3 else 0

/-- The tensor of the contact frame, corrected on the axis, is the gradient of the velocity of the
contact frame. -/
theorem gradRef3_isGradient (S : Singularity 3) (hH : 0 < S.H1) (hM : 0 < S.H2) (ha : 0 < S.contact)
    (hp : 0 < S.param) (q : Pos 3 ℝ) :
    IsGradient (uRef3 S) (fun i j => gradRef3 S q i j +
      if i = j ∧ i ≠ 2 then Spec.axisTerm S q else 0) q := by
  obtain ⟨d0, d1⟩ := uxy3_differentiable hp S.H1 S.H2 S.contact S.UN hH hM ha q
  have d2 := uz3_differentiable hp S.H1 S.H2 S.contact S.UN hH hM ha q
  have m0 : moved q 0 = fun t => ![t, q 1, q 2] := funext fun t => (moved3 q t).1
  have m1 : moved q 1 = fun t => ![q 0, t, q 2] := funext fun t => (moved3 q t).2.1
  have m2 : moved q 2 = fun t => ![q 0, q 1, t] := funext fun t => (moved3 q t).2.2
  have k : ∀ (u : Pos 3 ℝ → ℝ) (g : Fin 3 → ℝ), HasDerivAt (fun t => u ![t, q 1, q 2]) (g 0) (q 0) →
      HasDerivAt (fun t => u ![q 0, t, q 2]) (g 1) (q 1) →
      HasDerivAt (fun t => u ![q 0, q 1, t]) (g 2) (q 2) →
      ∀ j, HasDerivAt (fun t => u (moved q j t)) (g j) (q j) := by
    intro u g e0 e1 e2 j
    have f0 : HasDerivAt (fun t => u (moved q 0 t)) (g 0) (q 0) := by rw [m0]; exact e0
    have f1 : HasDerivAt (fun t => u (moved q 1 t)) (g 1) (q 1) := by rw [m1]; exact e1
    have f2 : HasDerivAt (fun t => u (moved q 2 t)) (g 2) (q 2) := by rw [m2]; exact e2
    fin_cases j
    exacts [f0, f1, f2]
  have l01 : ¬ ((0 : Fin 3) = 1 ∧ (0 : Fin 3) ≠ 2) := by decide
  have l02 : ¬ ((0 : Fin 3) = 2 ∧ (0 : Fin 3) ≠ 2) := by decide
  have l10 : ¬ ((1 : Fin 3) = 0 ∧ (1 : Fin 3) ≠ 2) := by decide
  have l12 : ¬ ((1 : Fin 3) = 2 ∧ (1 : Fin 3) ≠ 2) := by decide
  have l2 : ∀ j : Fin 3, ¬ ((2 : Fin 3) = j ∧ (2 : Fin 3) ≠ 2) := by decide
  have l00 : (0 : Fin 3) = 0 ∧ (0 : Fin 3) ≠ 2 := by decide
  have l11 : (1 : Fin 3) = 1 ∧ (1 : Fin 3) ≠ 2 := by decide
  have key : ∀ i : Fin 3, ∀ j, HasDerivAt (fun t => uRef3 S (moved q j t) i) (gradRef3 S q i j +
      if i = j ∧ i ≠ 2 then Spec.axisTerm S q else 0) (q j) := by
    by_cases hq : q 0 = 0 ∧ q 1 = 0
    · have hq' : q = ![0, 0, q 2] := by
        conv_lhs => rw [vec3_eta q, hq.1, hq.2]
      obtain ⟨⟨v1, v2, h00, h11⟩, ⟨h01, h02, h10, h12⟩, -⟩ :=
        C60_normal3D_axis hp S.H1 S.H2 S.contact S.UN (q 2) hH hM ha
      obtain ⟨h20, h21, h22⟩ :=
        C60_normal3D_axial hp S.H1 S.H2 S.contact S.UN (q 0) (q 1) (q 2) hH hM ha
      rw [← hq'] at v1 v2 h01 h02 h10 h12
      rw [← vec3_eta q] at h20 h21 h22
      have r0 := k (fun Y => ux_sing_normalMvt3D Y S.H1 S.H2 S.contact S.UN S.param S.param)
        (fun j => gradRef3 S q 0 j + if (0 : Fin 3) = j ∧ (0 : Fin 3) ≠ 2 then Spec.axisTerm S q else 0)
        (by
          rw [if_pos l00, Spec.axisTerm, if_pos hq, hq.1, hq.2]
          refine h00.congr_deriv ?_
          rw [show gradRef3 S q 0 0 = _ from v1, zero_add])
        (by rw [if_neg l01, add_zero, hq.1, hq.2]; exact h01)
        (by rw [if_neg l02, add_zero, hq.1, hq.2]; exact h02)
      have r1 := k (fun Y => uy_sing_normalMvt3D Y S.H1 S.H2 S.contact S.UN S.param S.param)
        (fun j => gradRef3 S q 1 j + if (1 : Fin 3) = j ∧ (1 : Fin 3) ≠ 2 then Spec.axisTerm S q else 0)
        (by rw [if_neg l10, add_zero, hq.1, hq.2]; exact h10)
        (by
          rw [if_pos l11, Spec.axisTerm, if_pos hq, hq.1, hq.2]
          refine h11.congr_deriv ?_
          rw [show gradRef3 S q 1 1 = _ from v2, zero_add])
        (by rw [if_neg l12, add_zero, hq.1, hq.2]; exact h12)
      have r2 := k (fun Y => uz_sing_normalMvt3D Y S.H1 S.H2 S.contact S.UN S.param S.param)
        (fun j => gradRef3 S q 2 j + if (2 : Fin 3) = j ∧ (2 : Fin 3) ≠ 2 then Spec.axisTerm S q else 0)
        (by rw [if_neg (l2 _), add_zero]; exact h20)
        (by rw [if_neg (l2 _), add_zero]; exact h21)
        (by rw [if_neg (l2 _), add_zero]; exact h22)
      intro i
      fin_cases i
      exacts [r0, r1, r2]
    · have hq0 : q 0 ≠ 0 ∨ q 1 ≠ 0 := by tauto
      obtain ⟨⟨h00, h01, h02⟩, ⟨h10, h11, h12⟩, h20, h21, h22⟩ :=
        C60_normal3D_off_axis hp S.H1 S.H2 S.contact S.UN (q 0) (q 1) (q 2) hH hM ha hq0
      rw [← vec3_eta q] at h00 h01 h02 h10 h11 h12 h20 h21 h22
      have r0 := k (fun Y => ux_sing_normalMvt3D Y S.H1 S.H2 S.contact S.UN S.param S.param)
        (gradRef3 S q 0) h00 h01 h02
      have r1 := k (fun Y => uy_sing_normalMvt3D Y S.H1 S.H2 S.contact S.UN S.param S.param)
        (gradRef3 S q 1) h10 h11 h12
      have r2 := k (fun Y => uz_sing_normalMvt3D Y S.H1 S.H2 S.contact S.UN S.param S.param)
        (gradRef3 S q 2) h20 h21 h22
      have e : ∀ i j : Fin 3, gradRef3 S q i j + (if i = j ∧ i ≠ 2 then Spec.axisTerm S q else 0) =
          gradRef3 S q i j := by
        intro i j
        rw [Spec.axisTerm, if_neg hq]
        simp
      intro i j
      rw [e]
      revert j
      fin_cases i
      exacts [r0, r1, r2]
  have dif : ∀ i : Fin 3, DifferentiableAt ℝ (fun Y => uRef3 S Y i) q := by
    intro i
    fin_cases i
    exacts [d0, d1, d2]
  exact fun i => ⟨dif i, key i⟩

/-- C63 (space, for the singularity of every pair of balls): at every point the gradient of the velocity
returned by `get_u_sing` is the tensor returned by `get_grad_u_sing`, plus, on the line of centres only,
`-3 U z (a - z)/a³` times the projector across that line (which the code leaves out). -/
theorem C63_normal3D (p1 p2 : Ball 3) (h alpha : ℝ) (hh : 0 < h) (S : Singularity 3)
    (hS : mkSing3 p1 p2 h alpha = some S) (h1 : 0 < p1.r) (h2 : 0 < p2.r)
    (hgap : p1.r + p2.r < √(distSq p1.center p2.center)) (X : Pos 3 ℝ) (k l : Fin 3) :
    HasDerivAt (fun t => getU3 S (moved X l t) k) (getGradU3 S X k l +
      Spec.axisTerm S (posInRef S X) * (S.base 0 k * S.base 0 l + S.base 1 k * S.base 1 l)) (X l) := by
  obtain ⟨e1, e2, e3, e4⟩ := sing_members _ _ _ _ _ _ _ hS
  have hlow := cutoff_lower _ _ p1 p2 h alpha S hS
  have hc : 0 < S.cutoff := lt_of_lt_of_le (by positivity) hlow
  have hp : 0 < S.param := by rw [e1]; positivity
  have ha : 0 < S.contact := by rw [e3]; linarith
  have hHM : 0 < S.H1 ∧ 0 < S.H2 := by
    rw [mkSing3, mkSing] at hS
    split_ifs at hS
    obtain rfl := Option.some.inj hS
    exact ⟨one_div_pos.2 h1, one_div_pos.2 h2⟩
  refine (C63_change_of_frame S (uRef3 S) _ X
    (gradRef3_isGradient S hHM.1 hHM.2 ha hp _) k l).congr_deriv ?_
  rw [getGradU3, gradToMesh_eq, gradToMesh_eq]
  rw [Fin.sum_univ_three, Fin.sum_univ_three]
  rw [Fin.sum_univ_three, Fin.sum_univ_three, Fin.sum_univ_three, Fin.sum_univ_three,
    Fin.sum_univ_three, Fin.sum_univ_three]
  have l01 : ¬ ((0 : Fin 3) = 1 ∧ (0 : Fin 3) ≠ 2) := by decide
  have l02 : ¬ ((0 : Fin 3) = 2 ∧ (0 : Fin 3) ≠ 2) := by decide
  have l10 : ¬ ((1 : Fin 3) = 0 ∧ (1 : Fin 3) ≠ 2) := by decide
  have l12 : ¬ ((1 : Fin 3) = 2 ∧ (1 : Fin 3) ≠ 2) := by decide
  have l2 : ∀ j : Fin 3, ¬ ((2 : Fin 3) = j ∧ (2 : Fin 3) ≠ 2) := by decide
  have l00 : (0 : Fin 3) = 0 ∧ (0 : Fin 3) ≠ 2 := by decide
  have l11 : (1 : Fin 3) = 1 ∧ (1 : Fin 3) ≠ 2 := by decide
  rw [if_neg l01, if_neg l02, if_neg l10, if_neg l12, if_neg (l2 _), if_neg (l2 _), if_neg (l2 _),
    if_pos l00, if_pos l11]
  ring

/-- The velocity of the contact frame whose gradient the planar code computes: the coded cross
component, with the axial component consistent with it (see `Spec.axial2`). -/
noncomputable def Spec.uRef2 (S : Singularity 2) (q : Pos 2 ℝ) : Pos 2 ℝ :=
  ![Spec.axial2 S.H1 S.H2 S.contact S.UN S.param (q 0) (q 1),
    uz_sing_normalMvt2D q S.H1 S.H2 S.contact S.UN S.param S.param]

theorem vec2_eta (Y : Pos 2 ℝ) : Y = ![Y 0, Y 1] := by
  funext i
  fin_cases i <;> rfl

theorem gradRef2_isGradient (S : Singularity 2) (hH : 0 < S.H1) (hM : 0 < S.H2) (ha : 0 < S.contact)
    (hp : 0 < S.param) (q : Pos 2 ℝ) : IsGradient (Spec.uRef2 S) (gradRef2 S q) q := by
  obtain ⟨⟨h00, h01⟩, ⟨h10, h11⟩, -⟩ :=
    C60_normal2D_exact (U := S.UN) hp hH hM ha (q 0) (q 1)
  rw [← vec2_eta q] at h00 h01 h10 h11
  have e0 : DifferentiableAt ℝ (fun Y : Pos 2 ℝ => Y 0) q := differentiableAt_apply 0 q
  have e1 : DifferentiableAt ℝ (fun Y : Pos 2 ℝ => Y 1) q := differentiableAt_apply 1 q
  have c0 : DifferentiableAt ℝ (fun Y : Pos 2 ℝ => chiTrunc (Y 1) S.param S.param) q :=
    (hasDerivAt_chi hp _).differentiableAt.comp q e1
  have c1 : DifferentiableAt ℝ (fun Y : Pos 2 ℝ => dchiTrunc (Y 1) S.param S.param) q :=
    (hasDerivAt_dchi hp _).differentiableAt.comp q e1
  have ht : 2 * S.contact + (S.H1 + S.H2) * q 1 ^ 2 ≠ 0 := by positivity
  have ht' : 2 * S.contact + S.H2 * (q 1 * q 1) + S.H1 * (q 1 * q 1) ≠ 0 := by
    have := mul_self_nonneg (q 1)
    positivity
  have d0 : DifferentiableAt ℝ (fun Y => Spec.uRef2 S Y 0) q := by
    have : (fun Y => Spec.uRef2 S Y 0) = _ :=
      funext fun Y => axial2_eq (U := S.UN) hp hH hM ha (Y 0) (Y 1)
    rw [this]
    dd
    all_goals positivity
  have d1 : DifferentiableAt ℝ (fun Y => Spec.uRef2 S Y 1) q := by
    show DifferentiableAt ℝ
      (fun Y => uz_sing_normalMvt2D Y S.H1 S.H2 S.contact S.UN S.param S.param) q
    simp only [uz_sing_normalMvt2D]
    dd
    all_goals positivity
  have m0 : moved q 0 = fun t => ![t, q 1] := by
    funext t i; fin_cases i <;> simp [moved]
  have m1 : moved q 1 = fun t => ![q 0, t] := by
    funext t i; fin_cases i <;> simp [moved]
  have k00 : HasDerivAt (fun t => Spec.uRef2 S (moved q 0 t) 0) (gradRef2 S q 0 0) (q 0) := by
    rw [m0]; exact h00
  have k01 : HasDerivAt (fun t => Spec.uRef2 S (moved q 1 t) 0) (gradRef2 S q 0 1) (q 1) := by
    rw [m1]; exact h01
  have k10 : HasDerivAt (fun t => Spec.uRef2 S (moved q 0 t) 1) (gradRef2 S q 1 0) (q 0) := by
    rw [m0]; exact h10
  have k11 : HasDerivAt (fun t => Spec.uRef2 S (moved q 1 t) 1) (gradRef2 S q 1 1) (q 1) := by
    rw [m1]; exact h11
  have r0 : ∀ j, HasDerivAt (fun t => Spec.uRef2 S (moved q j t) 0) (gradRef2 S q 0 j) (q j) := by
    intro j; fin_cases j; exacts [k00, k01]
  have r1 : ∀ j, HasDerivAt (fun t => Spec.uRef2 S (moved q j t) 1) (gradRef2 S q 1 j) (q j) := by
    intro j; fin_cases j; exacts [k10, k11]
  intro i
  fin_cases i
  exacts [⟨d0, r0⟩, ⟨d1, r1⟩]

/-- C63 (plane, for the singularity of every pair of balls): the tensor returned by `get_grad_u_sing` is,
at every point, the gradient of the velocity of the mesh frame made of the coded cross component and
of the axial component consistent with it; the velocity returned by `get_u_sing` differs from it by the
truncation term described in `C60_normal2D_exact`. -/
theorem C63_normal2D (p1 p2 : Ball 2) (h alpha : ℝ) (hh : 0 < h) (S : Singularity 2)
    (hS : mkSing2 p1 p2 h alpha = some S) (h1 : 0 < p1.r) (h2 : 0 < p2.r)
    (hgap : p1.r + p2.r < √(distSq p1.center p2.center)) (X : Pos 2 ℝ) (k l : Fin 2) :
    HasDerivAt (fun t => toMesh S.base (Spec.uRef2 S (posInRef S (moved X l t))) k)
      (getGradU2 S X k l) (X l) ∧
    getU2 S X k = toMesh S.base (Spec.uRef2 S (posInRef S X)) k - S.base 0 k *
      deriv (fun r => Spec.missing2 S.H1 S.H2 S.contact S.UN S.param (posInRef S X 0) r)
        (posInRef S X 1) := by
  obtain ⟨e1, e2, e3, e4⟩ := sing_members _ _ _ _ _ _ _ hS
  have hlow := cutoff_lower _ _ p1 p2 h alpha S hS
  have hc : 0 < S.cutoff := lt_of_lt_of_le (by positivity) hlow
  have hp : 0 < S.param := by rw [e1]; positivity
  have ha : 0 < S.contact := by rw [e3]; linarith
  have hHM : 0 < S.H1 ∧ 0 < S.H2 := by
    rw [mkSing2, mkSing] at hS
    split_ifs at hS
    obtain rfl := Option.some.inj hS
    exact ⟨one_div_pos.2 h1, one_div_pos.2 h2⟩
  refine ⟨C63_change_of_frame S (Spec.uRef2 S) _ X
    (gradRef2_isGradient S hHM.1 hHM.2 ha hp _) k l, ?_⟩
  have hm := (C60_normal2D_exact (U := S.UN) hp hHM.1 hHM.2 ha
    (posInRef S X 0) (posInRef S X 1)).2.2.deriv
  rw [← vec2_eta] at hm
  rw [hm, getU2, toMesh_eq, toMesh_eq, Fin.sum_univ_two, Fin.sum_univ_two]
  have g0 : Spec.uRef2 S (posInRef S X) 0 = Spec.axial2 S.H1 S.H2 S.contact S.UN S.param
    (posInRef S X 0) (posInRef S X 1) := rfl
  have g1 : Spec.uRef2 S (posInRef S X) 1 = uRef2 S (posInRef S X) 1 := rfl
  have g2 : uRef2 S (posInRef S X) 0 = ux_sing_normalMvt2D (posInRef S X) S.H1 S.H2 S.contact S.UN
    S.param S.param := rfl
  rw [g0, g1, g2]
  ring

theorem innerProd3 (a b : Pos 3 ℝ) : innerProd a b = a 0 * b 0 + a 1 * b 1 + a 2 * b 2 := by
  rw [innerProd_eq, dot, Fin.sum_univ_three]
theorem innerProd2 (a b : Pos 2 ℝ) : innerProd a b = a 0 * b 0 + a 1 * b 1 := by
  rw [innerProd_eq, dot, Fin.sum_univ_two]

/-- The singularity of the two circles of `exBall1` on a mesh of step 1. -/
theorem exBall_sing : mkSing2 exBall1 exBall2 1 4 =
    some ⟨1, 1, 3 / 10, √2, 1, -1, -2, ![![1, 0], ![0, 1]], ![1, 0]⟩ := by
  have hd := exBall_distance
  have hcut : cutoffDist 1 1 (3 / 10) 4 1 = √2 := by
    rw [C59_cutoff]
    have h2 : (1 : ℝ) ≤ √2 := by
      rw [Real.one_le_sqrt]; norm_num
    rw [mul_one, max_eq_left]
    exact (min_le_right _ _).trans (by simpa using h2)
  have hb : constructBase2 exBall1 exBall2 = ⟨![![1, 0], ![0, 1]], -1, -2⟩ := by
    have hb0 : vecDivScal (positionDiff exBall2 exBall1) (distance exBall1 exBall2) = ![1, 0] := by
      funext i
      rw [axis_eq, hd]
      fin_cases i <;> norm_num [exBall1, exBall2]
    simp only [constructBase2, hb0, innerProd2]
    norm_num [velocityDiff, exBall1, exBall2]
  have hr1 : exBall1.r = 1 := rfl
  have hr2 : exBall2.r = 1 := rfl
  have e : (23 / 10 - 1 - 1 : ℝ) = 3 / 10 := by norm_num
  simp only [mkSing2, mkSing, hd, hr1, hr2, e, hcut, hb]
  rw [if_pos (by norm_num)]
  congr 2
  · norm_num
  · norm_num
  · rw [mul_assoc, Real.mul_self_sqrt (by norm_num)]; norm_num
  · funext i
    fin_cases i <;> norm_num [exBall1]

/-- The coded axial component on the line `r = 1` for the data of `exBall_sing`. -/
theorem ux2_witness' (z : ℝ) : ux_sing_normalMvt2D ![z, 1] 1 1 (3 / 10) (-1) 1 1 =
    -2940759 / 29246464 + z * (6810675 / 3655808) + z ^ 2 * (17760825 / 7311616) +
      z ^ 3 * (-9867125 / 1827904) := by
  simp only [ux_sing_normalMvt2D, Matrix.cons_val_zero, Matrix.cons_val_one]
  rw [chi_eq one_pos, dchi_eq, d2chi_eq]
  norm_num [alphaTrunc, dalphaTrunc, d2alphaTrunc]
  ring

theorem ux2_witness_deriv' : ∃ d : ℝ,
    HasDerivAt (fun z => ux_sing_normalMvt2D ![z, 1] 1 1 (3 / 10) (-1) 1 1) d 0 ∧
    d ≠ dxux_sing_normalMvt2D ![0, 1] 1 1 (3 / 10) (-1) 1 1 := by
  refine ⟨6810675 / 3655808, ?_, ?_⟩
  · simp only [ux2_witness']
    apply HasDerivAt.congr_deriv
    · hd
    · norm_num
  · simp only [dxux_sing_normalMvt2D, Matrix.cons_val_zero, Matrix.cons_val_one]
    rw [chi_eq one_pos, dchi_eq]
    norm_num [alphaTrunc, dalphaTrunc]

/-- C63 fails in the plane: inside the cut-off radius the tensor of `get_grad_u_sing` is not the
gradient of the velocity of `get_u_sing`. -/
theorem C63_normal2D_refuted : ¬ ∀ (p1 p2 : Ball 2) (h alpha : ℝ) (S : Singularity 2), 0 < h →
    mkSing2 p1 p2 h alpha = some S → 0 < p1.r → 0 < p2.r →
    p1.r + p2.r < √(distSq p1.center p2.center) → ∀ (X : Pos 2 ℝ) (k l : Fin 2),
    HasDerivAt (fun t => getU2 S (moved X l t) k) (getGradU2 S X k l) (X l) := by
  intro H
  obtain ⟨d, hd1, hd2⟩ := ux2_witness_deriv'
  have hdist : √(distSq exBall1.center exBall2.center) = 23 / 10 := by
    rw [← exBall_distance, distance, innerProd_eq]
    congr 1
    exact Finset.sum_congr rfl fun i _ => by simp only [positionDiff]; ring
  have h := H exBall1 exBall2 1 4 _ one_pos exBall_sing one_pos one_pos
    (by rw [hdist]; norm_num [exBall1, exBall2]) ![1, 1] 0 0
  set S : Singularity 2 := ⟨1, 1, 3 / 10, √2, 1, -1, -2, ![![1, 0], ![0, 1]], ![1, 0]⟩ with hSdef
  have hpos : ∀ t, posInRef S (moved ![1, 1] 0 t) = ![t - 1, 1] := by
    intro t
    funext k
    rw [posInRef, innerProd2]
    fin_cases k <;> simp [S, moved]
  have e1 : ∀ t, getU2 S (moved ![1, 1] 0 t) 0 = ux_sing_normalMvt2D ![t - 1, 1] 1 1 (3 / 10) (-1) 1 1 := by
    intro t
    rw [getU2, toMesh_eq, Fin.sum_univ_two, hpos]
    simp [S, uRef2]
  have e2 : getGradU2 S ![1, 1] 0 0 = dxux_sing_normalMvt2D ![0, 1] 1 1 (3 / 10) (-1) 1 1 := by
    have := hpos 1
    rw [show moved (![1, 1] : Pos 2 ℝ) 0 1 = ![1, 1] by funext i; fin_cases i <;> simp [moved]] at this
    rw [getGradU2, gradToMesh_eq, this]
    simp [S, Fin.sum_univ_two, gradRef2]
  simp only [e1, e2] at h
  have h3 : HasDerivAt (fun t => ux_sing_normalMvt2D ![t - 1, 1] 1 1 (3 / 10) (-1) 1 1) d 1 := by
    have hs : HasDerivAt (fun t : ℝ => t - 1) 1 1 := (hasDerivAt_id' 1).sub_const 1
    have := HasDerivAt.comp (h := fun t : ℝ => t - 1) (h₂ := fun z => ux_sing_normalMvt2D ![z, 1] 1 1 (3 / 10) (-1) 1 1)
      (1 : ℝ) (by simpa using hd1) hs
    rw [mul_one] at this
    exact this
  exact hd2 (h3.unique (by simpa using h))

/-- The singularity of two unit spheres on the `x` axis, the first one moving to the second one, on a
mesh of step 1: here the frame is orthonormal. -/
theorem exSphere_sing_x : mkSing3 (exSphere ![1, 0, 0] ![1, 0, 0]).1 (exSphere ![1, 0, 0] ![1, 0, 0]).2 1 4 =
    some ⟨1, 1, 1 / 2, √2, 1, 1, 0, ![![0, 1, 0], ![0, 0, 1], ![1, 0, 0]], ![1, 0, 0]⟩ := by
  have hn : dot (![1, 0, 0] : Pos 3 ℝ) ![1, 0, 0] = 1 := by
    norm_num [dot, Fin.sum_univ_three, vec3_two]
  generalize hp1 : (exSphere ![1, 0, 0] ![1, 0, 0]).1 = p1
  generalize hp2 : (exSphere ![1, 0, 0] ![1, 0, 0]).2 = p2
  have hd : distance p1 p2 = 5 / 2 := by
    rw [← exSphere_distSq ![1, 0, 0] ![1, 0, 0] hn, distance, innerProd_eq, ← hp1, ← hp2]
    congr 1
    exact Finset.sum_congr rfl fun i _ => by simp only [positionDiff]; ring
  have hcut : cutoffDist 1 1 (1 / 2) 4 1 = √2 := by
    rw [C59_cutoff]
    have h2 : (1 : ℝ) ≤ √2 := by
      rw [Real.one_le_sqrt]; norm_num
    rw [mul_one, max_eq_left]
    exact (min_le_right _ _).trans (by simpa using h2)
  have hb : constructBase3 p1 p2 = ⟨![![0, 1, 0], ![0, 0, 1], ![1, 0, 0]], 1, 0⟩ := by
    have hb0 : vecDivScal (positionDiff p2 p1) (distance p1 p2) = ![1, 0, 0] := by
      funext i
      rw [axis_eq, hd, ← hp1, ← hp2]
      fin_cases i <;> norm_num [exSphere]
    have hv : velocityDiff p1 p2 = ![1, 0, 0] := by
      funext i
      rw [← hp1, ← hp2]
      fin_cases i <;> norm_num [exSphere, velocityDiff]
    have ht : rawTangent ![1, 0, 0] ![1, 0, 0] = ![0, 1, 0] := by
      rw [rawTangent, if_pos (by norm_num [innerProd3, vec3_two])]
      norm_num [sgn, vec3_two]
    have hn1 : vecDivScal (![0, 1, 0] : Pos 3 ℝ) (√(innerProd ![0, 1, 0] ![0, 1, 0])) = ![0, 1, 0] := by
      funext i
      rw [vecDivScal, compLoop_apply, innerProd3]
      fin_cases i <;> norm_num [vec3_two]
    have hcr : cross3 (![1, 0, 0] : Pos 3 ℝ) ![0, 1, 0] = ![0, 0, 1] := by
      funext i
      fin_cases i <;> norm_num [cross3, vec3_two]
    simp only [constructBase3, hb0, hv, ht, hn1, hcr]
    norm_num [innerProd3, vec3_two]
  have hr1 : p1.r = 1 := by rw [← hp1]; rfl
  have hr2 : p2.r = 1 := by rw [← hp2]; rfl
  have hc1 : p1.center = fun _ => 0 := by rw [← hp1]; rfl
  have e : (5 / 2 - 1 - 1 : ℝ) = 1 / 2 := by norm_num
  simp only [mkSing3, mkSing, hd, hr1, hr2, e, hcut, hb]
  rw [if_pos (by norm_num)]
  congr 2
  · norm_num
  · norm_num
  · rw [mul_assoc, Real.mul_self_sqrt (by norm_num)]; norm_num
  · funext i
    have b2 : (![![0, 1, 0], ![0, 0, 1], ![1, 0, 0]] : Fin 3 → Pos 3 ℝ) 2 = ![1, 0, 0] := rfl
    rw [hc1, b2]
    ring

/-- C63 fails on the line of centres in space: the cross derivatives of the cross components are
returned as 0 there, although the frame is orthonormal. -/
theorem C63_normal3D_axis_refuted : ¬ ∀ (p1 p2 : Ball 3) (h alpha : ℝ) (S : Singularity 3), 0 < h →
    mkSing3 p1 p2 h alpha = some S → 0 < p1.r → 0 < p2.r →
    p1.r + p2.r < √(distSq p1.center p2.center) → Orthonormal S.base →
    ∀ (X : Pos 3 ℝ) (k l : Fin 3),
    HasDerivAt (fun t => getU3 S (moved X l t) k) (getGradU3 S X k l) (X l) := by
  intro H
  have hn : dot (![1, 0, 0] : Pos 3 ℝ) ![1, 0, 0] = 1 := by
    norm_num [dot, Fin.sum_univ_three, vec3_two]
  have h := H _ _ 1 4 _ one_pos exSphere_sing_x one_pos one_pos
    (by rw [exSphere_distSq _ _ hn]; norm_num [exSphere]) (by
      intro i j
      fin_cases i <;> fin_cases j <;> norm_num [dot, Fin.sum_univ_three, vec3_two] <;> simp) ![5 / 4, 0, 0] 1 1
  set S : Singularity 3 := ⟨1, 1, 1 / 2, √2, 1, 1, 0, ![![0, 1, 0], ![0, 0, 1], ![1, 0, 0]], ![1, 0, 0]⟩
    with hSdef
  have hpos : ∀ t, posInRef S (moved ![5 / 4, 0, 0] 1 t) = ![t, 0, 1 / 4] := by
    intro t
    funext k
    rw [posInRef, innerProd3, (moved3 _ t).2.1]
    fin_cases k <;> norm_num [S, vec3_two]
  have e1 : ∀ t, getU3 S (moved ![5 / 4, 0, 0] 1 t) 1 =
      ux_sing_normalMvt3D ![t, 0, 1 / 4] 1 1 (1 / 2) 1 1 1 := by
    intro t
    rw [getU3, toMesh_eq, Fin.sum_univ_three, hpos]
    simp [S, uRef3]
  have e2 : getGradU3 S ![5 / 4, 0, 0] 1 1 = dxux_sing_normalMvt3D ![0, 0, 1 / 4] 1 1 (1 / 2) 1 1 1 := by
    have := hpos 0
    rw [show moved (![5 / 4, 0, 0] : Pos 3 ℝ) 1 0 = ![5 / 4, 0, 0] by
      funext i; fin_cases i <;> simp [moved]] at this
    rw [getGradU3, gradToMesh_eq, this]
    simp [S, Fin.sum_univ_three, gradRef3]
  have e3 : dxux_sing_normalMvt3D ![0, 0, 1 / 4] 1 1 (1 / 2) 1 1 1 = 0 :=
    if_neg (not_not.2 (by norm_num))
  simp only [e1, e2, e3] at h
  have hgx := hasDerivAt_radG one_pos 1 1 (1 / 2) 1 (1 / 4) one_pos one_pos (by norm_num)
    (fun x => sq_sum_nonneg x 0) (hasDerivAt_sq_left 0 0)
  have h2 := (hd_mul (hasDerivAt_id' 0) hgx).congr_of_eventuallyEq
    (Filter.Eventually.of_forall fun u =>
      ux_radG_all _ _ _ _ _ _ _ _ _ one_pos one_pos (by norm_num))
  have h3 := HasDerivAt.unique (by simpa using h) h2
  rw [chi_rad one_pos (by norm_num), dchi_rad (by norm_num)] at h3
  norm_num [radG, alphaTrunc, dalphaTrunc] at h3

/-- The hypotheses of `C63_normal3D` are met at `(5/4, 1/2, 0)` for the spheres of
`exSphere_sing_x`. -/
example : (exSphere ![1, 0, 0] ![1, 0, 0]).1.r + (exSphere ![1, 0, 0] ![1, 0, 0]).2.r <
    √(distSq (exSphere ![1, 0, 0] ![1, 0, 0]).1.center (exSphere ![1, 0, 0] ![1, 0, 0]).2.center) ∧
    posInRef (⟨1, 1, 1 / 2, √2, 1, 1, 0, ![![0, 1, 0], ![0, 0, 1], ![1, 0, 0]], ![1, 0, 0]⟩ :
      Singularity 3) ![5 / 4, 1 / 2, 0] 0 ≠ 0 := by
  have hn : dot (![1, 0, 0] : Pos 3 ℝ) ![1, 0, 0] = 1 := by
    norm_num [dot, Fin.sum_univ_three, vec3_two]
  rw [exSphere_distSq _ _ hn, posInRef, innerProd3]
  norm_num [exSphere, vec3_two]

end Cafes.Props
