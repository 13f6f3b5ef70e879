import Verif.Lemmas.FE
import Verif.Model.MatElem
import Mathlib.Tactic.Ring
import Mathlib.Algebra.BigOperators.Fin

namespace Cafes.Spec
open intervalIntegral

/-- `hat` or its slope. -/
noncomputable def fac (d : Bool) (b : Fin 2) (h t : ℝ) : ℝ := if d then dhat b h else hat b h t

/-- Integral of a product of two factors over `[0,h]`. -/
noncomputable def J (d e : Bool) (a b : Fin 2) (h : ℝ) : ℝ :=
  match d, e with
  | false, false => h * (m1 a b : ℝ)
  | true, false => (s1 a : ℝ)
  | false, true => (s1 b : ℝ)
  | true, true => (k1 a b : ℝ) / h

theorem continuous_fac (d : Bool) (b : Fin 2) (h : ℝ) : Continuous (fac d b h) := by
  cases d
  · exact (continuous_hat b h).congr fun t => by simp [fac]
  · exact (continuous_const (y := dhat b h)).congr fun t => by simp [fac]

theorem int_fac (d e : Bool) (a b : Fin 2) (h : ℝ) (hh : h ≠ 0) :
    ∫ t in (0:ℝ)..h, fac d a h t * fac e b h t = J d e a b h := by
  cases d <;> cases e <;> simp only [fac, J, if_true, if_false, Bool.false_eq_true]
  · exact int_hat_hat a b h hh
  · exact int_hat_dhat a b h hh
  · exact int_dhat_hat a b h hh
  · exact int_dhat_dhat a b h hh

theorem grad2_phi2 (h : Fin 2 → ℝ) (k : Fin 4) (x y : ℝ) (p : Fin 2) :
    grad2 (phi2 h k) x y p =
      fac (decide (p = 0)) (bit2 k 0) (h 0) x * fac (decide (p = 1)) (bit2 k 1) (h 1) y := by
  fin_cases p
  · exact deriv_hat_mul _ _ _ _
  · exact deriv_mul_hat _ _ _ _

theorem grad3_phi3 (h : Fin 3 → ℝ) (k : Fin 8) (x y z : ℝ) (p : Fin 3) :
    grad3 (phi3 h k) x y z p =
      fac (decide (p = 0)) (bit3 k 0) (h 0) x * fac (decide (p = 1)) (bit3 k 1) (h 1) y *
        fac (decide (p = 2)) (bit3 k 2) (h 2) z := by
  fin_cases p
  · have : (fun s => phi3 h k s y z) = fun s => hat (bit3 k 0) (h 0) s *
        (hat (bit3 k 1) (h 1) y * hat (bit3 k 2) (h 2) z) := by
      funext s; simp only [phi3]; ring
    show deriv (fun s => phi3 h k s y z) x = _
    rw [this, deriv_hat_mul]; simp [fac]; ring
  · have : (fun s => phi3 h k x s z) = fun s => hat (bit3 k 1) (h 1) s *
        (hat (bit3 k 0) (h 0) x * hat (bit3 k 2) (h 2) z) := by
      funext s; simp only [phi3]; ring
    show deriv (fun s => phi3 h k x s z) y = _
    rw [this, deriv_hat_mul]; simp [fac]; ring
  · exact deriv_mul_hat _ _ _ _

theorem int2_gg (h : Fin 2 → ℝ) (h0 : ∀ c, h c ≠ 0) (i j : Fin 4) (p q : Fin 2) :
    int2 h (fun x y => grad2 (phi2 h i) x y p * grad2 (phi2 h j) x y q) =
      J (decide (p = 0)) (decide (q = 0)) (bit2 i 0) (bit2 j 0) (h 0) *
      J (decide (p = 1)) (decide (q = 1)) (bit2 i 1) (bit2 j 1) (h 1) := by
  rw [← int_fac _ _ _ _ _ (h0 0), ← int_fac _ _ _ _ _ (h0 1), ← int2_mul]
  congr 1; funext x y
  rw [grad2_phi2, grad2_phi2]; ring

theorem int3_gg (h : Fin 3 → ℝ) (h0 : ∀ c, h c ≠ 0) (i j : Fin 8) (p q : Fin 3) :
    int3 h (fun x y z => grad3 (phi3 h i) x y z p * grad3 (phi3 h j) x y z q) =
      J (decide (p = 0)) (decide (q = 0)) (bit3 i 0) (bit3 j 0) (h 0) *
      J (decide (p = 1)) (decide (q = 1)) (bit3 i 1) (bit3 j 1) (h 1) *
      J (decide (p = 2)) (decide (q = 2)) (bit3 i 2) (bit3 j 2) (h 2) := by
  rw [← int_fac _ _ _ _ _ (h0 0), ← int_fac _ _ _ _ _ (h0 1), ← int_fac _ _ _ _ _ (h0 2),
    ← int3_mul]
  congr 1; funext x y z
  rw [grad3_phi3, grad3_phi3]; ring

theorem int2_pp (h : Fin 2 → ℝ) (h0 : ∀ c, h c ≠ 0) (i j : Fin 4) :
    int2 h (fun x y => phi2 h i x y * phi2 h j x y) =
      (h 0 * m1 (bit2 i 0) (bit2 j 0)) * (h 1 * m1 (bit2 i 1) (bit2 j 1)) := by
  rw [← int_hat_hat _ _ _ (h0 0), ← int_hat_hat _ _ _ (h0 1), ← int2_mul]
  congr 1; funext x y
  simp only [phi2]; ring

theorem int3_pp (h : Fin 3 → ℝ) (h0 : ∀ c, h c ≠ 0) (i j : Fin 8) :
    int3 h (fun x y z => phi3 h i x y z * phi3 h j x y z) =
      (h 0 * m1 (bit3 i 0) (bit3 j 0)) * (h 1 * m1 (bit3 i 1) (bit3 j 1)) *
        (h 2 * m1 (bit3 i 2) (bit3 j 2)) := by
  rw [← int_hat_hat _ _ _ (h0 0), ← int_hat_hat _ _ _ (h0 1), ← int_hat_hat _ _ _ (h0 2),
    ← int3_mul]
  congr 1; funext x y z
  simp only [phi3]; ring

/-! Linearity. -/

theorem int2_const_mul (h : Fin 2 → ℝ) (c : ℝ) (F : ℝ → ℝ → ℝ) :
    int2 h (fun x y => c * F x y) = c * int2 h F := by
  unfold int2; simp only [integral_const_mul]

theorem int3_const_mul (h : Fin 3 → ℝ) (c : ℝ) (F : ℝ → ℝ → ℝ → ℝ) :
    int3 h (fun x y z => c * F x y z) = c * int3 h F := by
  unfold int3; simp only [integral_const_mul]

theorem int3_add (h : Fin 3 → ℝ) (F G : ℝ → ℝ → ℝ → ℝ)
    (hF : Continuous fun p : ℝ × ℝ × ℝ => F p.1 p.2.1 p.2.2)
    (hG : Continuous fun p : ℝ × ℝ × ℝ => G p.1 p.2.1 p.2.2) :
    int3 h (fun x y z => F x y z + G x y z) = int3 h F + int3 h G := by
  have e : ∀ (F : ℝ → ℝ → ℝ → ℝ), int3 h F
      = ∫ x in (0:ℝ)..h 0, int2 ![h 1, h 2] (F x) := fun F => rfl
  rw [e, e, e]
  have h1 : ∀ x, int2 ![h 1, h 2] (fun y z => F x y z + G x y z)
      = int2 ![h 1, h 2] (F x) + int2 ![h 1, h 2] (G x) := by
    intro x
    exact int2_add _ _ _ (hF.comp (by fun_prop : Continuous fun p : ℝ × ℝ => (x, p)))
      (hG.comp (by fun_prop : Continuous fun p : ℝ × ℝ => (x, p)))
  have hc : ∀ (F : ℝ → ℝ → ℝ → ℝ), (Continuous fun p : ℝ × ℝ × ℝ => F p.1 p.2.1 p.2.2) →
      Continuous fun x => int2 ![h 1, h 2] (F x) := by
    intro F hF
    unfold int2
    apply continuous_parametric_intervalIntegral_of_continuous'
    have : Continuous fun q : (ℝ × ℝ) × ℝ => F q.1.1 q.1.2 q.2 :=
      hF.comp (by fun_prop : Continuous fun q : (ℝ × ℝ) × ℝ => (q.1.1, q.1.2, q.2))
    exact continuous_parametric_intervalIntegral_of_continuous' this _ _
  simp only [h1]
  exact integral_add ((hc F hF).intervalIntegrable _ _) ((hc G hG).intervalIntegrable _ _)

theorem int2_zero (h : Fin 2 → ℝ) : int2 h (fun _ _ => 0) = 0 := by simp [int2]
theorem int3_zero (h : Fin 3 → ℝ) : int3 h (fun _ _ _ => 0) = 0 := by simp [int3]

theorem int2_sum {ι : Type*} (s : Finset ι) (h : Fin 2 → ℝ) (F : ι → ℝ → ℝ → ℝ)
    (hF : ∀ k, Continuous fun p : ℝ × ℝ => F k p.1 p.2) :
    int2 h (fun x y => ∑ k ∈ s, F k x y) = ∑ k ∈ s, int2 h (F k) := by
  classical
  induction s using Finset.induction_on with
  | empty => simp [int2_zero]
  | insert a s ha ih =>
    simp only [Finset.sum_insert ha]
    rw [← ih]
    exact int2_add h (F a) _ (hF a) (continuous_finsetSum _ fun k _ => hF k)

theorem int3_sum {ι : Type*} (s : Finset ι) (h : Fin 3 → ℝ) (F : ι → ℝ → ℝ → ℝ → ℝ)
    (hF : ∀ k, Continuous fun p : ℝ × ℝ × ℝ => F k p.1 p.2.1 p.2.2) :
    int3 h (fun x y z => ∑ k ∈ s, F k x y z) = ∑ k ∈ s, int3 h (F k) := by
  classical
  induction s using Finset.induction_on with
  | empty => simp [int3_zero]
  | insert a s ha ih =>
    simp only [Finset.sum_insert ha]
    rw [← ih]
    exact int3_add h (F a) _ (hF a) (continuous_finsetSum _ fun k _ => hF k)

theorem cont_gg2 (h : Fin 2 → ℝ) (i j : Fin 4) (p q : Fin 2) : Continuous fun v : ℝ × ℝ =>
    grad2 (phi2 h i) v.1 v.2 p * grad2 (phi2 h j) v.1 v.2 q := by
  simp only [grad2_phi2]
  have := fun d b => fun c => continuous_fac d b (h c)
  exact (((this _ _ _).comp continuous_fst).mul ((this _ _ _).comp continuous_snd)).mul
    (((this _ _ _).comp continuous_fst).mul ((this _ _ _).comp continuous_snd))

theorem cont_gg3 (h : Fin 3 → ℝ) (i j : Fin 8) (p q : Fin 3) : Continuous fun v : ℝ × ℝ × ℝ =>
    grad3 (phi3 h i) v.1 v.2.1 v.2.2 p * grad3 (phi3 h j) v.1 v.2.1 v.2.2 q := by
  simp only [grad3_phi3]
  have c := fun d b => fun c => continuous_fac d b (h c)
  have f1 : Continuous fun v : ℝ × ℝ × ℝ => v.2.1 := by fun_prop
  have f2 : Continuous fun v : ℝ × ℝ × ℝ => v.2.2 := by fun_prop
  exact ((((c _ _ _).comp continuous_fst).mul ((c _ _ _).comp f1)).mul ((c _ _ _).comp f2)).mul
    ((((c _ _ _).comp continuous_fst).mul ((c _ _ _).comp f1)).mul ((c _ _ _).comp f2))

/-- Coefficients of `2 D(phi_i e_a) : D(phi_j e_b)` on the products of partial derivatives. -/
def strainCoef {n : ℕ} (a b p q : Fin n) : ℝ :=
  (if a = b ∧ p = q then 1 else 0) + (if p = b ∧ q = a then 1 else 0)

theorem symGrad_contract {n : ℕ} (g g' : Fin n → ℝ) (a b : Fin n) :
    2 * ∑ c, ∑ d, symGrad g a c d * symGrad g' b c d =
      ∑ p, ∑ q, strainCoef a b p q * (g p * g' q) := by
  unfold symGrad strainCoef
  have e1 : ∑ p, ∑ q, ((if a = b ∧ p = q then (1:ℝ) else 0) + (if p = b ∧ q = a then 1 else 0)) *
      (g p * g' q) = (if a = b then ∑ p, g p * g' p else 0) + g b * g' a := by
    simp only [add_mul, Finset.sum_add_distrib]
    congr 1
    · by_cases hab : a = b <;> simp [hab]
    · simp only [ite_and]; simp
  rw [e1]
  have e2 : ∀ c d, ((if d = a then g c else 0) + if c = a then g d else 0) / 2 *
      (((if d = b then g' c else 0) + if c = b then g' d else 0) / 2) =
      (1/4) * ((if d = a then (if d = b then g c * g' c else 0) else 0)
       + (if d = a then (if c = b then g c * g' d else 0) else 0)
       + (if c = a then (if d = b then g d * g' c else 0) else 0)
       + (if c = a then (if c = b then g d * g' d else 0) else 0)) := by
    intro c d
    split_ifs <;> ring
  simp only [e2, ← Finset.mul_sum, Finset.sum_add_distrib]
  have s1 : ∑ c, ∑ d, (if d = a then (if d = b then g c * g' c else 0) else 0)
      = if a = b then ∑ p, g p * g' p else 0 := by
    by_cases hab : a = b <;> simp [hab]
  have s2 : ∑ c, ∑ d, (if d = a then (if c = b then g c * g' d else 0) else 0) = g b * g' a := by
    simp
  have s3 : ∑ c, ∑ d, (if c = a then (if d = b then g d * g' c else 0) else 0) = g b * g' a := by
    simp
  have s4 : ∑ c, ∑ d, (if c = a then (if c = b then g d * g' d else 0) else 0)
      = if a = b then ∑ p, g p * g' p else 0 := by
    simp only [Finset.sum_ite_irrel, Finset.sum_const_zero, Finset.sum_ite_eq', Finset.mem_univ, if_true]
  rw [s1, s2, s3, s4]; ring

theorem int2_strain (h : Fin 2 → ℝ) (i j : Fin 4) (a b : Fin 2) :
    int2 h (fun x y => 2 * ∑ c, ∑ d, symGrad (grad2 (phi2 h i) x y) a c d *
      symGrad (grad2 (phi2 h j) x y) b c d) =
    ∑ p, ∑ q, strainCoef a b p q *
      int2 h (fun x y => grad2 (phi2 h i) x y p * grad2 (phi2 h j) x y q) := by
  simp only [symGrad_contract]
  rw [int2_sum]
  · refine Finset.sum_congr rfl fun p _ => ?_
    rw [int2_sum]
    · exact Finset.sum_congr rfl fun q _ => int2_const_mul _ _ _
    · exact fun q => continuous_const.mul (cont_gg2 h i j p q)
  · exact fun p => continuous_finsetSum _ fun q _ => continuous_const.mul (cont_gg2 h i j p q)

theorem int3_strain (h : Fin 3 → ℝ) (i j : Fin 8) (a b : Fin 3) :
    int3 h (fun x y z => 2 * ∑ c, ∑ d, symGrad (grad3 (phi3 h i) x y z) a c d *
      symGrad (grad3 (phi3 h j) x y z) b c d) =
    ∑ p, ∑ q, strainCoef a b p q *
      int3 h (fun x y z => grad3 (phi3 h i) x y z p * grad3 (phi3 h j) x y z q) := by
  simp only [symGrad_contract]
  rw [int3_sum]
  · refine Finset.sum_congr rfl fun p _ => ?_
    rw [int3_sum]
    · exact Finset.sum_congr rfl fun q _ => int3_const_mul _ _ _
    · exact fun q => continuous_const.mul (cont_gg3 h i j p q)
  · exact fun p => continuous_finsetSum _ fun q _ => continuous_const.mul (cont_gg3 h i j p q)

end Cafes.Spec
