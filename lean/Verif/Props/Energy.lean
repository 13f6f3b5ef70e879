/-
Property theorems: C14 (symmetry, positivity and kernels of the element matrices).
-/
import Verif.Lemmas.Energy
import Verif.Props.FE

namespace Cafes.Props
open Cafes Cafes.Spec

/-- C14 (symmetry, 2D). -/
theorem C14_symmetric2 (h : Pos 2 ℝ) (hh : ∀ c, 0 < h c) (i j : Fin 4) :
    matElemLaplacian2 h i j = matElemLaplacian2 h j i ∧ matElemMass2 h i j = matElemMass2 h j i ∧
    ∀ a b, matElemStrain2 h i j a b = matElemStrain2 h j i b a := by
  refine ⟨?_, ?_, fun a b => ?_⟩
  · rw [C10_laplacian2 h hh, C10_laplacian2 h hh]; simp only [mul_comm]
  · rw [C11_mass2 h hh, C11_mass2 h hh]; simp only [mul_comm]
  · rw [C12_strain2 h hh, C12_strain2 h hh]; simp only [mul_comm]

/-- C14 (symmetry, 3D). -/
theorem C14_symmetric3 (h : Pos 3 ℝ) (hh : ∀ c, 0 < h c) (i j : Fin 8) :
    matElemLaplacian3 h i j = matElemLaplacian3 h j i ∧ matElemMass3 h i j = matElemMass3 h j i ∧
    ∀ a b, matElemStrain3 h i j a b = matElemStrain3 h j i b a := by
  refine ⟨?_, ?_, fun a b => ?_⟩
  · rw [C10_laplacian3 h hh, C10_laplacian3 h hh]; simp only [mul_comm]
  · rw [C11_mass3 h hh, C11_mass3 h hh]; simp only [mul_comm]
  · rw [C12_strain3 h hh, C12_strain3 h hh]; simp only [mul_comm]

/-- The Laplacian form is the integral of the product of the gradients of the two fields. -/
theorem lap2_form (h : Pos 2 ℝ) (hh : ∀ c, 0 < h c) (x y : Fin 4 → ℝ) :
    ∑ i, ∑ j, x i * y j * matElemLaplacian2 h i j =
      int2 h (fun s t => ∑ c, (∑ i, x i * grad2 (phi2 h i) s t c) *
        ∑ i, y i * grad2 (phi2 h i) s t c) := by
  simp only [C10_laplacian2 h hh]
  rw [int2_bilin _ _ fun i j => continuous_finsetSum _ fun c _ => cont_gg2 h i j c c]
  congr 1; funext s t
  have := bilin_diag x y (fun _ : Fin 2 => 1) (fun i c => grad2 (phi2 h i) s t c)
    (fun i c => grad2 (phi2 h i) s t c)
  simpa only [one_mul] using this

theorem lap3_form (h : Pos 3 ℝ) (hh : ∀ c, 0 < h c) (x y : Fin 8 → ℝ) :
    ∑ i, ∑ j, x i * y j * matElemLaplacian3 h i j =
      int3 h (fun s t r => ∑ c, (∑ i, x i * grad3 (phi3 h i) s t r c) *
        ∑ i, y i * grad3 (phi3 h i) s t r c) := by
  simp only [C10_laplacian3 h hh]
  rw [int3_bilin _ _ fun i j => continuous_finsetSum _ fun c _ => cont_gg3 h i j c c]
  congr 1; funext s t r
  have := bilin_diag x y (fun _ : Fin 3 => 1) (fun i c => grad3 (phi3 h i) s t r c)
    (fun i c => grad3 (phi3 h i) s t r c)
  simpa only [one_mul] using this

/-- The strain form is the integral of `2 D(u) : D(v)`. -/
theorem strain2_form (h : Pos 2 ℝ) (hh : ∀ c, 0 < h c) (x y : Fin 4 × Fin 2 → ℝ) :
    ∑ p, ∑ q, x p * y q * matElemStrain2 h p.1 q.1 p.2 q.2 =
      int2 h (fun s t => 2 * ∑ c, ∑ d, strainOf (fun i => grad2 (phi2 h i) s t) x c d *
        strainOf (fun i => grad2 (phi2 h i) s t) y c d) := by
  simp only [C12_strain2 h hh]
  have cs := fun i a c d => cont_symGrad (fun v : ℝ × ℝ => grad2 (phi2 h i) v.1 v.2)
    (cont_g2 h i) a c d
  rw [int2_bilin _ _ fun p q => continuous_const.mul (continuous_finsetSum _ fun c _ =>
    continuous_finsetSum _ fun d _ => (cs p.1 p.2 c d).mul (cs q.1 q.2 c d))]
  congr 1; funext s t
  exact strainOf_bilin (fun i => grad2 (phi2 h i) s t) x y

theorem strain3_form (h : Pos 3 ℝ) (hh : ∀ c, 0 < h c) (x y : Fin 8 × Fin 3 → ℝ) :
    ∑ p, ∑ q, x p * y q * matElemStrain3 h p.1 q.1 p.2 q.2 =
      int3 h (fun s t r => 2 * ∑ c, ∑ d, strainOf (fun i => grad3 (phi3 h i) s t r) x c d *
        strainOf (fun i => grad3 (phi3 h i) s t r) y c d) := by
  simp only [C12_strain3 h hh]
  have cs := fun i a c d => cont_symGrad (fun v : ℝ × ℝ × ℝ => grad3 (phi3 h i) v.1 v.2.1 v.2.2)
    (cont_g3 h i) a c d
  rw [int3_bilin _ _ fun p q => continuous_const.mul (continuous_finsetSum _ fun c _ =>
    continuous_finsetSum _ fun d _ => (cs p.1 p.2 c d).mul (cs q.1 q.2 c d))]
  congr 1; funext s t r
  exact strainOf_bilin (fun i => grad3 (phi3 h i) s t r) x y

/-- C14 (positivity, 2D): the Laplacian and strain tensor element matrices are positive
semi-definite. -/
theorem C14_psd2 (h : Pos 2 ℝ) (hh : ∀ c, 0 < h c) :
    (∀ x : Fin 4 → ℝ, 0 ≤ ∑ i, ∑ j, x i * x j * matElemLaplacian2 h i j) ∧
    ∀ x : Fin 4 × Fin 2 → ℝ, 0 ≤ ∑ p, ∑ q, x p * x q * matElemStrain2 h p.1 q.1 p.2 q.2 := by
  refine ⟨fun x => ?_, fun x => ?_⟩
  · rw [lap2_form h hh]
    exact int2_nonneg h hh _ fun s t => Finset.sum_nonneg fun c _ => mul_self_nonneg _
  · rw [strain2_form h hh]
    exact int2_nonneg h hh _ fun s t => mul_nonneg (by norm_num) (Finset.sum_nonneg fun c _ =>
      Finset.sum_nonneg fun d _ => mul_self_nonneg _)

/-- C14 (positivity, 3D). -/
theorem C14_psd3 (h : Pos 3 ℝ) (hh : ∀ c, 0 < h c) :
    (∀ x : Fin 8 → ℝ, 0 ≤ ∑ i, ∑ j, x i * x j * matElemLaplacian3 h i j) ∧
    ∀ x : Fin 8 × Fin 3 → ℝ, 0 ≤ ∑ p, ∑ q, x p * x q * matElemStrain3 h p.1 q.1 p.2 q.2 := by
  refine ⟨fun x => ?_, fun x => ?_⟩
  · rw [lap3_form h hh]
    exact int3_nonneg h hh _ fun s t r => Finset.sum_nonneg fun c _ => mul_self_nonneg _
  · rw [strain3_form h hh]
    exact int3_nonneg h hh _ fun s t r => mul_nonneg (by norm_num) (Finset.sum_nonneg fun c _ =>
      Finset.sum_nonneg fun d _ => mul_self_nonneg _)

/-- A row of a bilinear form that vanishes against everything is zero. -/
theorem row_zero {ι κ : Type*} [Fintype ι] [DecidableEq ι] [Fintype κ] (M : ι → κ → ℝ) (y : κ → ℝ)
    (hz : ∀ x : ι → ℝ, ∑ i, ∑ j, x i * y j * M i j = 0) (i : ι) : ∑ j, M i j * y j = 0 := by
  have := hz (Pi.single i 1)
  rw [Finset.sum_eq_single i] at this
  · rw [← this]; exact Finset.sum_congr rfl fun j _ => by simp; ring
  · intro b _ hb; exact Finset.sum_eq_zero fun j _ => by simp [hb]
  · simp

/-- C14 (kernels, 2D): the Laplacian matrix annihilates the constants; the strain tensor matrix
annihilates the nodal values of every rigid motion `v(X) = t + w (-X1, X0)` at the nodes of the cell
`e`. -/
theorem C14_kernel2 (h : Pos 2 ℝ) (hh : ∀ c, 0 < h c) :
    (∀ (i : Fin 4) (c : ℝ), ∑ j, matElemLaplacian2 h i j * c = 0) ∧
    ∀ (e : Pos 2 ℤ) (t : Pos 2 ℝ) (w : ℝ) (i : Fin 4) (a : Fin 2),
      ∑ j, ∑ b, matElemStrain2 h i j a b *
        (t b + w * (![-((getElement2 e j 1 : ℝ) * h 1), (getElement2 e j 0 : ℝ) * h 0] : Pos 2 ℝ) b)
        = 0 := by
  have h0 : ∀ c, h c ≠ 0 := fun c => (hh c).ne'
  constructor
  · intro i c
    refine row_zero (matElemLaplacian2 h) (fun _ => c) (fun x => ?_) i
    rw [lap2_form h hh]
    have : ∀ s t q, ∑ i, c * grad2 (phi2 h i) s t q = 0 := by
      intro s t q
      have := grad2_affine h h0 c 0 s t q
      simpa using this
    simp only [this, mul_zero, Finset.sum_const_zero, int2_zero]
  · intro e t w i a
    have := row_zero (fun p q : Fin 4 × Fin 2 => matElemStrain2 h p.1 q.1 p.2 q.2)
      (fun q => t q.2 + w * (![-((getElement2 e q.1 1 : ℝ) * h 1),
        (getElement2 e q.1 0 : ℝ) * h 0] : Pos 2 ℝ) q.2) (fun x => ?_) (i, a)
    · rw [Fintype.sum_prod_type] at this; exact this
    rw [strain2_form h hh]
    have g0 := fun s r q => grad2_affine h h0 (t 0 - w * e 1 * h 1) ![0, -w] s r q
    have g1 := fun s r q => grad2_affine h h0 (t 1 + w * e 0 * h 0) ![w, 0] s r q
    have z0 : ∀ s r q, ∑ j, (t 0 + w * -((getElement2 e j 1 : ℝ) * h 1)) *
        grad2 (phi2 h j) s r q = (![0, -w] : Fin 2 → ℝ) q := by
      intro s r q; rw [← g0 s r q]
      refine Finset.sum_congr rfl fun j _ => ?_
      rw [getElement2_off, Fin.sum_univ_two]; congr 1; simp; ring
    have z1 : ∀ s r q, ∑ j, (t 1 + w * ((getElement2 e j 0 : ℝ) * h 0)) *
        grad2 (phi2 h j) s r q = (![w, 0] : Fin 2 → ℝ) q := by
      intro s r q; rw [← g1 s r q]
      refine Finset.sum_congr rfl fun j _ => ?_
      rw [getElement2_off, Fin.sum_univ_two]; congr 1; simp; ring
    have : ∀ s r c d, strainOf (fun i => grad2 (phi2 h i) s r) (fun q : Fin 4 × Fin 2 =>
        t q.2 + w * (![-((getElement2 e q.1 1 : ℝ) * h 1),
        (getElement2 e q.1 0 : ℝ) * h 0] : Pos 2 ℝ) q.2) c d = 0 := by
      intro s r c d
      rw [strainOf_eq]
      fin_cases c <;> fin_cases d
      · have := z0 s r 0; simp at this ⊢; linarith
      · have := z0 s r 1; have := z1 s r 0; simp at *; linarith
      · have := z0 s r 1; have := z1 s r 0; simp at *; linarith
      · have := z1 s r 1; simp at this ⊢; linarith
    simp only [this, mul_zero, Finset.sum_const_zero, int2_zero]

/-- C14 (kernels, 3D): constants, and rigid motions `v(X) = t + w x X`. -/
theorem C14_kernel3 (h : Pos 3 ℝ) (hh : ∀ c, 0 < h c) :
    (∀ (i : Fin 8) (c : ℝ), ∑ j, matElemLaplacian3 h i j * c = 0) ∧
    ∀ (e : Pos 3 ℤ) (t w : Pos 3 ℝ) (i : Fin 8) (a : Fin 3),
      ∑ j, ∑ b, matElemStrain3 h i j a b *
        (t b + (![w 1 * ((getElement3 e j 2 : ℝ) * h 2) - w 2 * ((getElement3 e j 1 : ℝ) * h 1),
            w 2 * ((getElement3 e j 0 : ℝ) * h 0) - w 0 * ((getElement3 e j 2 : ℝ) * h 2),
            w 0 * ((getElement3 e j 1 : ℝ) * h 1) - w 1 * ((getElement3 e j 0 : ℝ) * h 0)]
            : Pos 3 ℝ) b) = 0 := by
  have h0 : ∀ c, h c ≠ 0 := fun c => (hh c).ne'
  constructor
  · intro i c
    refine row_zero (matElemLaplacian3 h) (fun _ => c) (fun x => ?_) i
    rw [lap3_form h hh]
    have : ∀ s t r q, ∑ i, c * grad3 (phi3 h i) s t r q = 0 := by
      intro s t r q
      have := grad3_affine h h0 c 0 s t r q
      simpa using this
    simp only [this, mul_zero, Finset.sum_const_zero, int3_zero]
  · intro e t w i a
    have := row_zero (fun p q : Fin 8 × Fin 3 => matElemStrain3 h p.1 q.1 p.2 q.2)
      (fun q => t q.2 +
        (![w 1 * ((getElement3 e q.1 2 : ℝ) * h 2) - w 2 * ((getElement3 e q.1 1 : ℝ) * h 1),
            w 2 * ((getElement3 e q.1 0 : ℝ) * h 0) - w 0 * ((getElement3 e q.1 2 : ℝ) * h 2),
            w 0 * ((getElement3 e q.1 1 : ℝ) * h 1) - w 1 * ((getElement3 e q.1 0 : ℝ) * h 0)]
            : Pos 3 ℝ) q.2) (fun x => ?_) (i, a)
    · rw [Fintype.sum_prod_type] at this; exact this
    rw [strain3_form h hh]
    have z0 : ∀ s r u q, ∑ j, (t 0 + (w 1 * ((getElement3 e j 2 : ℝ) * h 2)
        - w 2 * ((getElement3 e j 1 : ℝ) * h 1))) *
        grad3 (phi3 h j) s r u q = (![0, -w 2, w 1] : Fin 3 → ℝ) q := by
      intro s r u q
      rw [← grad3_affine h h0 (t 0 + w 1 * e 2 * h 2 - w 2 * e 1 * h 1) ![0, -w 2, w 1] s r u q]
      refine Finset.sum_congr rfl fun j _ => ?_
      rw [getElement3_off, getElement3_off, Fin.sum_univ_three]; congr 1; simp; ring
    have z1 : ∀ s r u q, ∑ j, (t 1 + (w 2 * ((getElement3 e j 0 : ℝ) * h 0)
        - w 0 * ((getElement3 e j 2 : ℝ) * h 2))) *
        grad3 (phi3 h j) s r u q = (![w 2, 0, -w 0] : Fin 3 → ℝ) q := by
      intro s r u q
      rw [← grad3_affine h h0 (t 1 + w 2 * e 0 * h 0 - w 0 * e 2 * h 2) ![w 2, 0, -w 0] s r u q]
      refine Finset.sum_congr rfl fun j _ => ?_
      rw [getElement3_off, getElement3_off, Fin.sum_univ_three]; congr 1; simp; ring
    have z2 : ∀ s r u q, ∑ j, (t 2 + (w 0 * ((getElement3 e j 1 : ℝ) * h 1)
        - w 1 * ((getElement3 e j 0 : ℝ) * h 0))) *
        grad3 (phi3 h j) s r u q = (![-w 1, w 0, 0] : Fin 3 → ℝ) q := by
      intro s r u q
      rw [← grad3_affine h h0 (t 2 + w 0 * e 1 * h 1 - w 1 * e 0 * h 0) ![-w 1, w 0, 0] s r u q]
      refine Finset.sum_congr rfl fun j _ => ?_
      rw [getElement3_off, getElement3_off, Fin.sum_univ_three]; congr 1; simp; ring
    have key : ∀ s r u c d, strainOf (fun i => grad3 (phi3 h i) s r u) (fun q : Fin 8 × Fin 3 =>
        t q.2 +
        (![w 1 * ((getElement3 e q.1 2 : ℝ) * h 2) - w 2 * ((getElement3 e q.1 1 : ℝ) * h 1),
            w 2 * ((getElement3 e q.1 0 : ℝ) * h 0) - w 0 * ((getElement3 e q.1 2 : ℝ) * h 2),
            w 0 * ((getElement3 e q.1 1 : ℝ) * h 1) - w 1 * ((getElement3 e q.1 0 : ℝ) * h 0)]
            : Pos 3 ℝ) q.2) c d = 0 := by
      intro s r u c d
      rw [strainOf_eq]
      have z := fun q => z0 s r u q
      have z' := fun q => z1 s r u q
      have z'' := fun q => z2 s r u q
      fin_cases c <;> fin_cases d
      · refine (congrArg (· / 2) (congrArg₂ (· + ·) (z 0) (z 0))).trans ?_; simp
      · refine (congrArg (· / 2) (congrArg₂ (· + ·) (z' 0) (z 1))).trans ?_; simp
      · refine (congrArg (· / 2) (congrArg₂ (· + ·) (z'' 0) (z 2))).trans ?_; simp
      · refine (congrArg (· / 2) (congrArg₂ (· + ·) (z 1) (z' 0))).trans ?_; simp
      · refine (congrArg (· / 2) (congrArg₂ (· + ·) (z' 1) (z' 1))).trans ?_; simp
      · refine (congrArg (· / 2) (congrArg₂ (· + ·) (z'' 1) (z' 2))).trans ?_; simp
      · refine (congrArg (· / 2) (congrArg₂ (· + ·) (z 2) (z'' 0))).trans ?_; simp
      · refine (congrArg (· / 2) (congrArg₂ (· + ·) (z' 2) (z'' 1))).trans ?_; simp
      · refine (congrArg (· / 2) (congrArg₂ (· + ·) (z'' 2) (z'' 2))).trans ?_; simp
    simp only [key, mul_zero, Finset.sum_const_zero, int3_zero]

/-! Mass matrix: positive definite, with an explicit bound. The bound comes from Simpson's rule,
which is exact on these products and has weight `1/6` at the two ends. -/

/-- `hat` at the Simpson points `0, 1/2, 1`. -/
private def sv : Fin 2 → Fin 3 → ℚ := ![![1, 1/2, 0], ![0, 1/2, 1]]
private def sw : Fin 3 → ℚ := ![1/6, 4/6, 1/6]

private theorem mass2_simpson : ∀ i j : Fin 4, matElemMass2d i j =
    ∑ g : Fin 3 × Fin 3, (sw g.1 * sw g.2) * ((sv (bit2 i 0) g.1 * sv (bit2 i 1) g.2) *
      (sv (bit2 j 0) g.1 * sv (bit2 j 1) g.2)) := by decide +kernel

private theorem mass3_simpson : ∀ i j : Fin 8, matElemMass3d i j =
    ∑ g : Fin 3 × Fin 3 × Fin 3, (sw g.1 * sw g.2.1 * sw g.2.2) *
      ((sv (bit3 i 0) g.1 * sv (bit3 i 1) g.2.1 * sv (bit3 i 2) g.2.2) *
      (sv (bit3 j 0) g.1 * sv (bit3 j 1) g.2.1 * sv (bit3 j 2) g.2.2)) := by decide +kernel

private def endpt : Fin 2 → Fin 3 := ![0, 2]

private theorem sw_end (b : Fin 2) : sw (endpt b) = 1/6 := by
  fin_cases b <;> rfl

private theorem sw_nonneg (g : Fin 3) : (0:ℝ) ≤ sw g := by
  have : 0 ≤ sw g := by revert g; decide +kernel
  exact_mod_cast this

private theorem sv_end2 : ∀ k i : Fin 4,
    sv (bit2 i 0) (endpt (bit2 k 0)) * sv (bit2 i 1) (endpt (bit2 k 1)) = if i = k then 1 else 0 := by
  decide +kernel

private theorem sv_end3 : ∀ k i : Fin 8,
    sv (bit3 i 0) (endpt (bit3 k 0)) * sv (bit3 i 1) (endpt (bit3 k 1)) *
      sv (bit3 i 2) (endpt (bit3 k 2)) = if i = k then 1 else 0 := by
  decide +kernel

/-- C14 (mass, 2D): `x^T M x` is the integral of the square of the field and is at least
`h0 h1 / 36` times the squared norm of the nodal values: the matrix is positive definite. -/
theorem C14_mass_posdef2 (h : Pos 2 ℝ) (hh : ∀ c, 0 < h c) (x : Fin 4 → ℝ) :
    ∑ i, ∑ j, x i * x j * matElemMass2 h i j
      = int2 h (fun s t => (∑ i, x i * phi2 h i s t) ^ 2) ∧
    h 0 * h 1 / 36 * ∑ i, x i ^ 2 ≤ ∑ i, ∑ j, x i * x j * matElemMass2 h i j := by
  constructor
  · simp only [C11_mass2 h hh]
    rw [int2_bilin _ _ fun i j => (cont_phi2 h i).mul (cont_phi2 h j)]
    congr 1; funext s t
    rw [sum_mul_sum' x (fun i => phi2 h i s t) x (fun i => phi2 h i s t)]; ring
  · have e : ∑ i, ∑ j, x i * x j * matElemMass2 h i j = h 0 * h 1 *
        ∑ g : Fin 3 × Fin 3, (sw g.1 * sw g.2 : ℝ) *
          ((∑ i, x i * (sv (bit2 i 0) g.1 * sv (bit2 i 1) g.2)) *
            ∑ i, x i * (sv (bit2 i 0) g.1 * sv (bit2 i 1) g.2)) := by
      rw [← bilin_diag x x (fun g : Fin 3 × Fin 3 => (sw g.1 * sw g.2 : ℝ))
        (fun i g => (sv (bit2 i 0) g.1 * sv (bit2 i 1) g.2 : ℝ))
        (fun i g => (sv (bit2 i 0) g.1 * sv (bit2 i 1) g.2 : ℝ)), Finset.mul_sum]
      refine Finset.sum_congr rfl fun i _ => ?_
      rw [Finset.mul_sum]
      refine Finset.sum_congr rfl fun j _ => ?_
      rw [matElemMass2, mass2_simpson]; push_cast; ring
    rw [e, show h 0 * h 1 / 36 * ∑ i, x i ^ 2 = h 0 * h 1 * ((1 / 36) * ∑ i, x i ^ 2) by ring]
    refine mul_le_mul_of_nonneg_left ?_ (mul_pos (hh 0) (hh 1)).le
    refine le_trans ?_ (sum_inj_le (fun k : Fin 4 => (endpt (bit2 k 0), endpt (bit2 k 1)))
      (by decide) _ fun g => mul_nonneg (mul_nonneg (sw_nonneg _) (sw_nonneg _)) (mul_self_nonneg _))
    rw [Finset.mul_sum]
    refine Finset.sum_le_sum fun k _ => ?_
    have : ∀ i, (sv (bit2 i 0) (endpt (bit2 k 0)) * sv (bit2 i 1) (endpt (bit2 k 1)) : ℝ)
        = if i = k then 1 else 0 := fun i => by
      rw [← Rat.cast_mul, sv_end2]; split_ifs <;> simp
    simp only [this, sw_end]
    simp
    apply le_of_eq; ring

/-- C14 (mass, 3D), with the bound `h0 h1 h2 / 216`. -/
theorem C14_mass_posdef3 (h : Pos 3 ℝ) (hh : ∀ c, 0 < h c) (x : Fin 8 → ℝ) :
    ∑ i, ∑ j, x i * x j * matElemMass3 h i j
      = int3 h (fun s t r => (∑ i, x i * phi3 h i s t r) ^ 2) ∧
    h 0 * h 1 * h 2 / 216 * ∑ i, x i ^ 2 ≤ ∑ i, ∑ j, x i * x j * matElemMass3 h i j := by
  constructor
  · simp only [C11_mass3 h hh]
    rw [int3_bilin _ _ fun i j => (cont_phi3 h i).mul (cont_phi3 h j)]
    congr 1; funext s t r
    rw [sum_mul_sum' x (fun i => phi3 h i s t r) x (fun i => phi3 h i s t r)]; ring
  · have e : ∑ i, ∑ j, x i * x j * matElemMass3 h i j = h 0 * h 1 * h 2 *
        ∑ g : Fin 3 × Fin 3 × Fin 3, (sw g.1 * sw g.2.1 * sw g.2.2 : ℝ) *
          ((∑ i, x i * (sv (bit3 i 0) g.1 * sv (bit3 i 1) g.2.1 * sv (bit3 i 2) g.2.2)) *
            ∑ i, x i * (sv (bit3 i 0) g.1 * sv (bit3 i 1) g.2.1 * sv (bit3 i 2) g.2.2)) := by
      rw [← bilin_diag x x (fun g : Fin 3 × Fin 3 × Fin 3 => (sw g.1 * sw g.2.1 * sw g.2.2 : ℝ))
        (fun i g => (sv (bit3 i 0) g.1 * sv (bit3 i 1) g.2.1 * sv (bit3 i 2) g.2.2 : ℝ))
        (fun i g => (sv (bit3 i 0) g.1 * sv (bit3 i 1) g.2.1 * sv (bit3 i 2) g.2.2 : ℝ)),
        Finset.mul_sum]
      refine Finset.sum_congr rfl fun i _ => ?_
      rw [Finset.mul_sum]
      refine Finset.sum_congr rfl fun j _ => ?_
      rw [matElemMass3, mass3_simpson]; push_cast; ring
    rw [e, show h 0 * h 1 * h 2 / 216 * ∑ i, x i ^ 2
      = h 0 * h 1 * h 2 * ((1 / 216) * ∑ i, x i ^ 2) by ring]
    refine mul_le_mul_of_nonneg_left ?_ (mul_pos (mul_pos (hh 0) (hh 1)) (hh 2)).le
    refine le_trans ?_ (sum_inj_le (fun k : Fin 8 =>
        (endpt (bit3 k 0), endpt (bit3 k 1), endpt (bit3 k 2)))
      (by decide) _ fun g => mul_nonneg (mul_nonneg (mul_nonneg (sw_nonneg _) (sw_nonneg _))
        (sw_nonneg _)) (mul_self_nonneg _))
    rw [Finset.mul_sum]
    refine Finset.sum_le_sum fun k _ => ?_
    have : ∀ i, (sv (bit3 i 0) (endpt (bit3 k 0)) * sv (bit3 i 1) (endpt (bit3 k 1)) *
        sv (bit3 i 2) (endpt (bit3 k 2)) : ℝ)
        = if i = k then 1 else 0 := fun i => by
      rw [← Rat.cast_mul, ← Rat.cast_mul, sv_end3]; split_ifs <;> simp
    simp only [this, sw_end]
    simp
    apply le_of_eq; ring

example : ∀ c, 0 < (![1/10, 1/20] : Pos 2 ℝ) c := by intro c; fin_cases c <;> norm_num

end Cafes.Props
