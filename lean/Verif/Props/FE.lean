/-
Property theorems for the finite element ingredients: C06 - C13.
-/
import Verif.Lemmas.FEP
import Verif.Lemmas.P1

namespace Cafes.Props
open Cafes Cafes.Spec

/-! ### C06: P1 weights -/

/-- C06 (2D): partition of unity, non negativity on the cell, interpolation property at the corners
numbered as in `get_element`, and the weights are the bilinear shape functions. -/
theorem C06_weights2 (h : Pos 2 ℝ) (hh : ∀ c, 0 < h c) :
    (∀ x : Pos 2 ℝ, ∑ k, p1Integration2 x h k = 1) ∧
    (∀ x : Pos 2 ℝ, (∀ c, 0 ≤ x c ∧ x c ≤ h c) → ∀ k, 0 ≤ p1Integration2 x h k) ∧
    (∀ k m : Fin 4, p1Integration2 (fun c => (getElement2 0 m c : ℝ) * h c) h k
      = if k = m then 1 else 0) ∧
    ∀ (x : Pos 2 ℝ) (k : Fin 4), p1Integration2 x h k = phi2 h k (x 0) (x 1) := by
  have h0 : ∀ c, h c ≠ 0 := fun c => (hh c).ne'
  refine ⟨fun x => ?_, fun x hx k => ?_, fun k m => ?_, fun x k => p1_2_eq_phi x h h0 k⟩
  · have a := h0 0
    have b := h0 1
    rw [Fin.sum_univ_four]
    show 1 / (h 0 * h 1) * (x 0 - h 0) * (x 1 - h 1) + 1 / (h 0 * h 1) * x 0 * (h 1 - x 1)
      + 1 / (h 0 * h 1) * (h 0 - x 0) * x 1 + 1 / (h 0 * h 1) * x 0 * x 1 = 1
    field_simp; ring
  · rw [p1_2_eq_phi x h h0]
    exact mul_nonneg (hat_nonneg _ _ _ (hh 0) (hx 0)) (hat_nonneg _ _ _ (hh 1) (hx 1))
  · rw [p1_2_eq_phi _ h h0]
    simp only [phi2, getElement2_bit, hat_corner _ _ _ (h0 _), ← bit2_inj k m]
    split_ifs <;> simp_all

/-- C06 (3D). -/
theorem C06_weights3 (h : Pos 3 ℝ) (hh : ∀ c, 0 < h c) :
    (∀ x : Pos 3 ℝ, ∑ k, p1Integration3 x h k = 1) ∧
    (∀ x : Pos 3 ℝ, (∀ c, 0 ≤ x c ∧ x c ≤ h c) → ∀ k, 0 ≤ p1Integration3 x h k) ∧
    (∀ k m : Fin 8, p1Integration3 (fun c => (getElement3 0 m c : ℝ) * h c) h k
      = if k = m then 1 else 0) ∧
    ∀ (x : Pos 3 ℝ) (k : Fin 8), p1Integration3 x h k = phi3 h k (x 0) (x 1) (x 2) := by
  have h0 : ∀ c, h c ≠ 0 := fun c => (hh c).ne'
  refine ⟨fun x => ?_, fun x hx k => ?_, fun k m => ?_, fun x k => p1_3_eq_phi x h h0 k⟩
  · simp only [p1_3_eq_phi x h h0, phi3]
    rw [Fin.sum_univ_eight]
    show hat 0 (h 0) (x 0) * hat 0 (h 1) (x 1) * hat 0 (h 2) (x 2) +
      hat 1 (h 0) (x 0) * hat 0 (h 1) (x 1) * hat 0 (h 2) (x 2) +
      hat 0 (h 0) (x 0) * hat 1 (h 1) (x 1) * hat 0 (h 2) (x 2) +
      hat 1 (h 0) (x 0) * hat 1 (h 1) (x 1) * hat 0 (h 2) (x 2) +
      hat 0 (h 0) (x 0) * hat 0 (h 1) (x 1) * hat 1 (h 2) (x 2) +
      hat 1 (h 0) (x 0) * hat 0 (h 1) (x 1) * hat 1 (h 2) (x 2) +
      hat 0 (h 0) (x 0) * hat 1 (h 1) (x 1) * hat 1 (h 2) (x 2) +
      hat 1 (h 0) (x 0) * hat 1 (h 1) (x 1) * hat 1 (h 2) (x 2) = 1
    simp only [hat0, hat1]; ring
  · rw [p1_3_eq_phi x h h0]
    exact mul_nonneg (mul_nonneg (hat_nonneg _ _ _ (hh 0) (hx 0)) (hat_nonneg _ _ _ (hh 1) (hx 1)))
      (hat_nonneg _ _ _ (hh 2) (hx 2))
  · rw [p1_3_eq_phi _ h h0]
    simp only [phi3, getElement3_bit, hat_corner _ _ _ (h0 _), ← bit3_inj k m]
    split_ifs <;> simp_all

example : (∀ c, 0 < (![1/2, 3] : Pos 2 ℝ) c) ∧
    ∀ c, 0 ≤ (![1/4, 2] : Pos 2 ℝ) c ∧ (![1/4, 2] : Pos 2 ℝ) c ≤ (![1/2, 3] : Pos 2 ℝ) c := by
  constructor <;> intro c <;> fin_cases c <;> norm_num

/-! ### C07: gradients of the weights -/

/-- C07 (2D): `P1_integration_grad` is `h0*h1` times the gradient of the weights computed by
`P1_integration` (the normalising factor is left to the caller), and the gradients sum to zero. -/
theorem C07_grad2 (h : Pos 2 ℝ) (h0 : ∀ c, h c ≠ 0) (x : Pos 2 ℝ) :
    (∀ k c, HasDerivAt (fun t => p1Integration2 (Function.update x c t) h k)
      (p1IntegrationGrad2 x h k c / (h 0 * h 1)) (x c)) ∧
    ∀ c, ∑ k, p1IntegrationGrad2 x h k c = 0 := by
  have a := h0 0
  have b := h0 1
  constructor
  · intro k c
    have hw : (fun t => p1Integration2 (Function.update x c t) h k) = fun t =>
        phi2 h k (Function.update x c t 0) (Function.update x c t 1) := by
      funext t; exact p1_2_eq_phi _ h h0 k
    rw [hw, p1Grad2_eq x h h0, mul_div_cancel_left₀ _ (mul_ne_zero a b)]
    fin_cases c
    · simp only [Fin.zero_eta, Function.update_self, ne_eq, one_ne_zero, not_false_eq_true,
        Function.update_of_ne]
      exact ((hasDerivAt_hat (bit2 k 0) (h 0) (x 0)).mul_const _).differentiableAt.hasDerivAt
    · simp only [Fin.mk_one, Function.update_self, ne_eq, zero_ne_one, not_false_eq_true,
        Function.update_of_ne]
      exact ((hasDerivAt_hat (bit2 k 1) (h 1) (x 1)).const_mul _).differentiableAt.hasDerivAt
  · intro c
    rw [Fin.sum_univ_four]
    fin_cases c
    · show (x 1 - h 1) + (h 1 - x 1) + -x 1 + x 1 = 0
      ring
    · show (x 0 - h 0) + -x 0 + (h 0 - x 0) + x 0 = 0
      ring

/-- C07 (3D). -/
theorem C07_grad3 (h : Pos 3 ℝ) (h0 : ∀ c, h c ≠ 0) (x : Pos 3 ℝ) :
    (∀ k c, HasDerivAt (fun t => p1Integration3 (Function.update x c t) h k)
      (p1IntegrationGrad3 x h k c / (h 0 * h 1 * h 2)) (x c)) ∧
    ∀ c, ∑ k, p1IntegrationGrad3 x h k c = 0 := by
  have hne : h 0 * h 1 * h 2 ≠ 0 := mul_ne_zero (mul_ne_zero (h0 0) (h0 1)) (h0 2)
  constructor
  · intro k c
    have hw : (fun t => p1Integration3 (Function.update x c t) h k) = fun t =>
        phi3 h k (Function.update x c t 0) (Function.update x c t 1) (Function.update x c t 2) := by
      funext t; exact p1_3_eq_phi _ h h0 k
    rw [hw, p1Grad3_eq x h h0, mul_div_cancel_left₀ _ hne]
    have hd := fun c => hasDerivAt_hat (bit3 k c) (h c) (x c)
    fin_cases c
    · simp only [Fin.zero_eta, Function.update_self, ne_eq, one_ne_zero, not_false_eq_true,
        Function.update_of_ne, show (2 : Fin 3) ≠ 0 by decide]
      exact (((hd 0).mul_const _).mul_const _).differentiableAt.hasDerivAt
    · simp only [Fin.mk_one, Function.update_self, ne_eq, zero_ne_one, not_false_eq_true,
        Function.update_of_ne, show (2 : Fin 3) ≠ 1 by decide]
      exact (((hd 1).const_mul _).mul_const _).differentiableAt.hasDerivAt
    · simp only [Fin.reduceFinMk, Function.update_self, ne_eq, not_false_eq_true,
        Function.update_of_ne, show (0 : Fin 3) ≠ 2 by decide, show (1 : Fin 3) ≠ 2 by decide]
      exact ((hd 2).const_mul _).differentiableAt.hasDerivAt
  · intro c
    rw [Fin.sum_univ_eight]
    simp only [p1Grad3_raw]
    have b : ∀ k : Fin 8, ∀ c, bit3 k c = (![![0,0,0],![1,0,0],![0,1,0],![1,1,0],![0,0,1],![1,0,1],
      ![0,1,1],![1,1,1]] : Fin 8 → Fin 3 → Fin 2) k c := by decide
    fin_cases c
    all_goals (simp [bit3]; try ring)

example : ∀ c, (![1/2, -3] : Pos 2 ℝ) c ≠ 0 := by intro c; fin_cases c <;> norm_num

/-! ### C08: exactness on affine fields -/

/-- C08 (2D): interpolating with the weights the nodal values of an affine field at the nodes of the
cell `e` gives the affine field at the point (whatever the point), and the interpolated value of any
nodal values in `[lo, hi]` stays in `[lo, hi]` when the point is in the cell. -/
theorem C08_affine2 (h : Pos 2 ℝ) (hh : ∀ c, 0 < h c) (e : Pos 2 ℤ) (x : Pos 2 ℝ) :
    (∀ (a : ℝ) (b : Pos 2 ℝ),
      ∑ k, p1Integration2 x h k * (a + ∑ c, b c * ((getElement2 e k c : ℝ) * h c)) =
        a + ∑ c, b c * ((e c : ℝ) * h c + x c)) ∧
    ∀ (v : Fin 4 → ℝ) (lo hi : ℝ), (∀ c, 0 ≤ x c ∧ x c ≤ h c) → (∀ k, lo ≤ v k ∧ v k ≤ hi) →
      lo ≤ ∑ k, p1Integration2 x h k * v k ∧ ∑ k, p1Integration2 x h k * v k ≤ hi := by
  have h0 : ∀ c, h c ≠ 0 := fun c => (hh c).ne'
  obtain ⟨hs, hp, -, hφ⟩ := C06_weights2 h hh
  constructor
  · intro a b
    have a0 := h0 0
    have a1 := h0 1
    simp only [getElement2_off, Fin.sum_univ_two, Fin.sum_univ_four]
    have e0 : p1Integration2 x h 0 = 1 / (h 0 * h 1) * (x 0 - h 0) * (x 1 - h 1) := rfl
    have e1 : p1Integration2 x h 1 = 1 / (h 0 * h 1) * x 0 * (h 1 - x 1) := rfl
    have e2 : p1Integration2 x h 2 = 1 / (h 0 * h 1) * (h 0 - x 0) * x 1 := rfl
    have e3 : p1Integration2 x h 3 = 1 / (h 0 * h 1) * x 0 * x 1 := rfl
    rw [e0, e1, e2, e3]
    simp [bit2]
    field_simp; ring
  · intro v lo hi hx hv
    have hw := hp x hx
    constructor
    · calc lo = ∑ k, p1Integration2 x h k * lo := by rw [← Finset.sum_mul, hs, one_mul]
        _ ≤ _ := Finset.sum_le_sum fun k _ => mul_le_mul_of_nonneg_left (hv k).1 (hw k)
    · calc _ ≤ ∑ k, p1Integration2 x h k * hi :=
            Finset.sum_le_sum fun k _ => mul_le_mul_of_nonneg_left (hv k).2 (hw k)
        _ = hi := by rw [← Finset.sum_mul, hs, one_mul]

/-- C08 (3D). -/
theorem C08_affine3 (h : Pos 3 ℝ) (hh : ∀ c, 0 < h c) (e : Pos 3 ℤ) (x : Pos 3 ℝ) :
    (∀ (a : ℝ) (b : Pos 3 ℝ),
      ∑ k, p1Integration3 x h k * (a + ∑ c, b c * ((getElement3 e k c : ℝ) * h c)) =
        a + ∑ c, b c * ((e c : ℝ) * h c + x c)) ∧
    ∀ (v : Fin 8 → ℝ) (lo hi : ℝ), (∀ c, 0 ≤ x c ∧ x c ≤ h c) → (∀ k, lo ≤ v k ∧ v k ≤ hi) →
      lo ≤ ∑ k, p1Integration3 x h k * v k ∧ ∑ k, p1Integration3 x h k * v k ≤ hi := by
  have h0 : ∀ c, h c ≠ 0 := fun c => (hh c).ne'
  obtain ⟨hs, hp, -, hφ⟩ := C06_weights3 h hh
  constructor
  · intro a b
    have a0 := h0 0
    have a1 := h0 1
    have a2 := h0 2
    simp only [getElement3_off, Fin.sum_univ_three, Fin.sum_univ_eight, hφ, phi3]
    simp [bit3, hat0, hat1]
    field_simp; ring
  · intro v lo hi hx hv
    have hw := hp x hx
    constructor
    · calc lo = ∑ k, p1Integration3 x h k * lo := by rw [← Finset.sum_mul, hs, one_mul]
        _ ≤ _ := Finset.sum_le_sum fun k _ => mul_le_mul_of_nonneg_left (hv k).1 (hw k)
    · calc _ ≤ ∑ k, p1Integration3 x h k * hi :=
            Finset.sum_le_sum fun k _ => mul_le_mul_of_nonneg_left (hv k).2 (hw k)
        _ = hi := by rw [← Finset.sum_mul, hs, one_mul]

example : ∀ k, (-1:ℝ) ≤ (![0, 1, -1, 1/2] : Fin 4 → ℝ) k ∧ (![0, 1, -1, 1/2] : Fin 4 → ℝ) k ≤ 1 := by
  intro k; fin_cases k <;> norm_num

/-! ### C10: Laplacian element matrix -/

private theorem lap2_tab : ∀ i j : Fin 4,
    matElem2d_dxudxu i j = k1 (bit2 i 0) (bit2 j 0) * m1 (bit2 i 1) (bit2 j 1) ∧
    matElem2d_dyudyu i j = m1 (bit2 i 0) (bit2 j 0) * k1 (bit2 i 1) (bit2 j 1) ∧
    matElem2d_dxudyu i j = s1 (bit2 j 0) * s1 (bit2 i 1) ∧
    matElemMass2d i j = m1 (bit2 i 0) (bit2 j 0) * m1 (bit2 i 1) (bit2 j 1) := by decide +kernel

private theorem tab3 : ∀ i j : Fin 8,
    matElem3d_dxudxu i j
      = k1 (bit3 i 0) (bit3 j 0) * m1 (bit3 i 1) (bit3 j 1) * m1 (bit3 i 2) (bit3 j 2) ∧
    matElem3d_dyudyu i j
      = m1 (bit3 i 0) (bit3 j 0) * k1 (bit3 i 1) (bit3 j 1) * m1 (bit3 i 2) (bit3 j 2) ∧
    matElem3d_dzudzu i j
      = m1 (bit3 i 0) (bit3 j 0) * m1 (bit3 i 1) (bit3 j 1) * k1 (bit3 i 2) (bit3 j 2) ∧
    matElem3d_dxudyu i j = s1 (bit3 j 0) * s1 (bit3 i 1) * m1 (bit3 i 2) (bit3 j 2) ∧
    matElem3d_dxudzu i j = s1 (bit3 j 0) * m1 (bit3 i 1) (bit3 j 1) * s1 (bit3 i 2) ∧
    matElem3d_dyudzu i j = m1 (bit3 i 0) (bit3 j 0) * s1 (bit3 j 1) * s1 (bit3 i 2) ∧
    matElemMass3d i j
      = m1 (bit3 i 0) (bit3 j 0) * m1 (bit3 i 1) (bit3 j 1) * m1 (bit3 i 2) (bit3 j 2) := by
  decide +kernel

/-- C10 (2D): entry `(i,j)` is the integral over the cell of `grad phi_i . grad phi_j`. -/
theorem C10_laplacian2 (h : Pos 2 ℝ) (hh : ∀ c, 0 < h c) (i j : Fin 4) :
    matElemLaplacian2 h i j =
      int2 h (fun x y => ∑ c, grad2 (phi2 h i) x y c * grad2 (phi2 h j) x y c) := by
  have h0 : ∀ c, h c ≠ 0 := fun c => (hh c).ne'
  have a := h0 0
  have b := h0 1
  rw [int2_sum _ _ _ fun c => cont_gg2 h i j c c]
  simp only [int2_gg h h0, Fin.sum_univ_two]
  obtain ⟨t1, t2, -, -⟩ := lap2_tab i j
  simp only [matElemLaplacian2, t1, t2]
  simp [J]
  field_simp

/-- C10 (3D). -/
theorem C10_laplacian3 (h : Pos 3 ℝ) (hh : ∀ c, 0 < h c) (i j : Fin 8) :
    matElemLaplacian3 h i j =
      int3 h (fun x y z => ∑ c, grad3 (phi3 h i) x y z c * grad3 (phi3 h j) x y z c) := by
  have h0 : ∀ c, h c ≠ 0 := fun c => (hh c).ne'
  have a := h0 0
  have b := h0 1
  have c := h0 2
  rw [int3_sum _ _ _ fun c => cont_gg3 h i j c c]
  simp only [int3_gg h h0, Fin.sum_univ_three]
  obtain ⟨t1, t2, t3, -⟩ := tab3 i j
  simp only [matElemLaplacian3, t1, t2, t3]
  simp [J]
  field_simp

/-! ### C11: mass element matrix -/

/-- C11 (2D): entry `(i,j)` is the integral over the cell of `phi_i phi_j`. -/
theorem C11_mass2 (h : Pos 2 ℝ) (hh : ∀ c, 0 < h c) (i j : Fin 4) :
    matElemMass2 h i j = int2 h (fun x y => phi2 h i x y * phi2 h j x y) := by
  rw [int2_pp h fun c => (hh c).ne']
  simp only [matElemMass2, (lap2_tab i j).2.2.2]
  push_cast; ring

/-- C11 (3D). -/
theorem C11_mass3 (h : Pos 3 ℝ) (hh : ∀ c, 0 < h c) (i j : Fin 8) :
    matElemMass3 h i j = int3 h (fun x y z => phi3 h i x y z * phi3 h j x y z) := by
  rw [int3_pp h fun c => (hh c).ne']
  simp only [matElemMass3, (tab3 i j).2.2.2.2.2.2]
  push_cast; ring

/-! ### C12: strain tensor element matrix -/

/-- C12 (2D): entry `[i][j][a][b]` is the integral over the cell of
`2 D(phi_i e_a) : D(phi_j e_b)`, `D` the symmetric gradient. -/
theorem C12_strain2 (h : Pos 2 ℝ) (hh : ∀ c, 0 < h c) (i j : Fin 4) (a b : Fin 2) :
    matElemStrain2 h i j a b =
      int2 h (fun x y => 2 * ∑ c, ∑ d, symGrad (grad2 (phi2 h i) x y) a c d *
        symGrad (grad2 (phi2 h j) x y) b c d) := by
  have h0 : ∀ c, h c ≠ 0 := fun c => (hh c).ne'
  have a0 := h0 0
  have a1 := h0 1
  rw [int2_strain]
  simp only [int2_gg h h0, Fin.sum_univ_two]
  obtain ⟨t1, t2, t3, -⟩ := lap2_tab i j
  have t3' := (lap2_tab j i).2.2.1
  fin_cases a <;> fin_cases b <;> simp [matElemStrain2, t1, t2, t3, t3', strainCoef, J] <;>
    field_simp
  all_goals ring

/-- C12 (3D). -/
theorem C12_strain3 (h : Pos 3 ℝ) (hh : ∀ c, 0 < h c) (i j : Fin 8) (a b : Fin 3) :
    matElemStrain3 h i j a b =
      int3 h (fun x y z => 2 * ∑ c, ∑ d, symGrad (grad3 (phi3 h i) x y z) a c d *
        symGrad (grad3 (phi3 h j) x y z) b c d) := by
  have h0 : ∀ c, h c ≠ 0 := fun c => (hh c).ne'
  have a0 := h0 0
  have a1 := h0 1
  have a2 := h0 2
  have ms : ∀ a b, m1 a b = m1 b a := by decide +kernel
  rw [int3_strain]
  simp only [int3_gg h h0, Fin.sum_univ_three]
  obtain ⟨t1, t2, t3, t4, t5, t6, -⟩ := tab3 i j
  obtain ⟨-, -, -, t4', t5', t6', -⟩ := tab3 j i
  rw [ms (bit3 j 2)] at t4'
  rw [ms (bit3 j 1)] at t5'
  rw [ms (bit3 j 0)] at t6'
  fin_cases a <;> fin_cases b <;>
    simp [matElemStrain3, t1, t2, t3, t4, t5, t6, t4', t5', t6', strainCoef, J] <;>
    field_simp
  all_goals ring

/-! ### C13: pressure/velocity element matrix -/

private theorem ptab2 : ∀ (i : Fin 4) (j : Fin 9),
    matElem2d_pdxu i j = -(qT (bit2 i 0) (trit2 j 0) * pT (bit2 i 1) (trit2 j 1)) ∧
    matElem2d_pdyu i j = -(pT (bit2 i 0) (trit2 j 0) * qT (bit2 i 1) (trit2 j 1)) := by
  decide +kernel

private theorem ptab3 : ∀ (i : Fin 8) (j : Fin 27),
    matElem3d_pdxu i j = -(qT (bit3 i 0) (trit3 j 0) * pT (bit3 i 1) (trit3 j 1)
      * pT (bit3 i 2) (trit3 j 2)) ∧
    matElem3d_pdyu i j = -(pT (bit3 i 0) (trit3 j 0) * qT (bit3 i 1) (trit3 j 1)
      * pT (bit3 i 2) (trit3 j 2)) ∧
    matElem3d_pdzu i j = -(pT (bit3 i 0) (trit3 j 0) * pT (bit3 i 1) (trit3 j 1)
      * qT (bit3 i 2) (trit3 j 2)) := by
  decide +kernel

/-- C13 (2D): with `h` the velocity mesh step, entry `[i][j][a]` is the integral over the pressure
cell (of size `2h`) of `psi_i d_a(phi_j)`, `psi` the Q1 basis of the pressure cell and `phi` the Q1
basis of the nine velocity nodes. -/
theorem C13_pressure2 (h : Pos 2 ℝ) (hh : ∀ c, 0 < h c) (i : Fin 4) (j : Fin 9) (a : Fin 2) :
    matElemPressure2 h i j a =
      int2 (fun c => 2 * h c)
        (fun x y => phi2 (fun c => 2 * h c) i x y * grad2 (vel2 h j) x y a) := by
  rw [int2_pg h hh]
  obtain ⟨t1, t2⟩ := ptab2 i j
  fin_cases a <;> simp [matElemPressure2, t1, t2, JP] <;> ring

/-- C13 (3D). -/
theorem C13_pressure3 (h : Pos 3 ℝ) (hh : ∀ c, 0 < h c) (i : Fin 8) (j : Fin 27) (a : Fin 3) :
    matElemPressure3 h i j a =
      int3 (fun c => 2 * h c)
        (fun x y z => phi3 (fun c => 2 * h c) i x y z * grad3 (vel3 h j) x y z a) := by
  rw [int3_pg h hh]
  obtain ⟨t1, t2, t3⟩ := ptab3 i j
  fin_cases a <;> simp [matElemPressure3, t1, t2, t3, JP] <;> ring

example : ∀ c, 0 < (![1/2, 3, 7] : Pos 3 ℝ) c := by intro c; fin_cases c <;> norm_num

end Cafes.Props
