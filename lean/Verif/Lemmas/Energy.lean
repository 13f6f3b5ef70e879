import Verif.Lemmas.FEP
import Verif.Lemmas.P1

namespace Cafes.Spec
open intervalIntegral

theorem int2_nonneg (h : Fin 2 → ℝ) (hh : ∀ c, 0 < h c) (F : ℝ → ℝ → ℝ) (hF : ∀ x y, 0 ≤ F x y) :
    0 ≤ int2 h F :=
  integral_nonneg_of_forall (hh 0).le fun _ =>
    integral_nonneg_of_forall (hh 1).le fun _ => hF _ _

theorem int3_nonneg (h : Fin 3 → ℝ) (hh : ∀ c, 0 < h c) (F : ℝ → ℝ → ℝ → ℝ)
    (hF : ∀ x y z, 0 ≤ F x y z) : 0 ≤ int3 h F :=
  integral_nonneg_of_forall (hh 0).le fun _ =>
    integral_nonneg_of_forall (hh 1).le fun _ => integral_nonneg_of_forall (hh 2).le fun _ => hF _ _ _

/-- A double sum of integrals against coefficients is the integral of the double sum. -/
theorem int2_bilin {ι κ : Type*} [Fintype ι] [Fintype κ] (h : Fin 2 → ℝ)
    (F : ι → κ → ℝ → ℝ → ℝ) (hF : ∀ i j, Continuous fun p : ℝ × ℝ => F i j p.1 p.2)
    (x : ι → ℝ) (y : κ → ℝ) :
    ∑ i, ∑ j, x i * y j * int2 h (F i j) =
      int2 h (fun s t => ∑ i, ∑ j, x i * y j * F i j s t) := by
  rw [int2_sum]
  · refine Finset.sum_congr rfl fun i _ => ?_
    rw [int2_sum]
    · exact Finset.sum_congr rfl fun j _ => (int2_const_mul _ _ _).symm
    · exact fun j => continuous_const.mul (hF i j)
  · exact fun i => continuous_finsetSum _ fun j _ => continuous_const.mul (hF i j)

theorem int3_bilin {ι κ : Type*} [Fintype ι] [Fintype κ] (h : Fin 3 → ℝ)
    (F : ι → κ → ℝ → ℝ → ℝ → ℝ) (hF : ∀ i j, Continuous fun p : ℝ × ℝ × ℝ => F i j p.1 p.2.1 p.2.2)
    (x : ι → ℝ) (y : κ → ℝ) :
    ∑ i, ∑ j, x i * y j * int3 h (F i j) =
      int3 h (fun s t r => ∑ i, ∑ j, x i * y j * F i j s t r) := by
  rw [int3_sum]
  · refine Finset.sum_congr rfl fun i _ => ?_
    rw [int3_sum]
    · exact Finset.sum_congr rfl fun j _ => (int3_const_mul _ _ _).symm
    · exact fun j => continuous_const.mul (hF i j)
  · exact fun i => continuous_finsetSum _ fun j _ => continuous_const.mul (hF i j)

theorem sum_mul_sum' {ι κ : Type*} [Fintype ι] [Fintype κ] (x u : ι → ℝ) (y v : κ → ℝ) :
    ∑ i, ∑ j, x i * y j * (u i * v j) = (∑ i, x i * u i) * ∑ j, y j * v j := by
  rw [Finset.sum_mul_sum]
  exact Finset.sum_congr rfl fun i _ => Finset.sum_congr rfl fun j _ => by ring

theorem bilin_diag {ι κ γ : Type*} [Fintype ι] [Fintype κ] [Fintype γ] (x : ι → ℝ) (y : κ → ℝ)
    (W : γ → ℝ) (u : ι → γ → ℝ) (v : κ → γ → ℝ) :
    ∑ i, ∑ j, x i * y j * ∑ c, W c * (u i c * v j c) =
      ∑ c, W c * ((∑ i, x i * u i c) * ∑ j, y j * v j c) := by
  simp only [← sum_mul_sum']
  simp only [Finset.mul_sum]
  calc _ = ∑ i, ∑ c, ∑ j, x i * y j * (W c * (u i c * v j c)) :=
        Finset.sum_congr rfl fun i _ => Finset.sum_comm
    _ = ∑ c, ∑ i, ∑ j, x i * y j * (W c * (u i c * v j c)) := Finset.sum_comm
    _ = _ := Finset.sum_congr rfl fun c _ => Finset.sum_congr rfl fun i _ =>
        Finset.sum_congr rfl fun j _ => by ring

theorem sum_inj_le {ι γ : Type*} [Fintype ι] [Fintype γ] [DecidableEq γ] (c : ι → γ)
    (hc : Function.Injective c) (f : γ → ℝ) (hf : ∀ g, 0 ≤ f g) : ∑ k, f (c k) ≤ ∑ g, f g := by
  rw [← Finset.sum_image (f := f) (g := c) (s := Finset.univ) (fun a _ b _ h => hc h)]
  exact Finset.sum_le_univ_sum_of_nonneg hf

theorem cont_phi2 (h : Fin 2 → ℝ) (i : Fin 4) : Continuous fun v : ℝ × ℝ => phi2 h i v.1 v.2 := by
  have c := fun b c => continuous_hat b (h c)
  exact ((c _ _).comp continuous_fst).mul ((c _ _).comp continuous_snd)

theorem cont_phi3 (h : Fin 3 → ℝ) (i : Fin 8) :
    Continuous fun v : ℝ × ℝ × ℝ => phi3 h i v.1 v.2.1 v.2.2 := by
  have c := fun b c => continuous_hat b (h c)
  have f1 : Continuous fun v : ℝ × ℝ × ℝ => v.2.1 := by fun_prop
  have f2 : Continuous fun v : ℝ × ℝ × ℝ => v.2.2 := by fun_prop
  exact (((c _ _).comp continuous_fst).mul ((c _ _).comp f1)).mul ((c _ _).comp f2)

theorem cont_g2 (h : Fin 2 → ℝ) (i : Fin 4) (p : Fin 2) : Continuous fun v : ℝ × ℝ =>
    grad2 (phi2 h i) v.1 v.2 p := by
  simp only [grad2_phi2]
  have := fun d b => fun c => continuous_fac d b (h c)
  exact ((this _ _ _).comp continuous_fst).mul ((this _ _ _).comp continuous_snd)

theorem cont_g3 (h : Fin 3 → ℝ) (i : Fin 8) (p : Fin 3) : Continuous fun v : ℝ × ℝ × ℝ =>
    grad3 (phi3 h i) v.1 v.2.1 v.2.2 p := by
  simp only [grad3_phi3]
  have c := fun d b => fun c => continuous_fac d b (h c)
  have f1 : Continuous fun v : ℝ × ℝ × ℝ => v.2.1 := by fun_prop
  have f2 : Continuous fun v : ℝ × ℝ × ℝ => v.2.2 := by fun_prop
  exact (((c _ _ _).comp continuous_fst).mul ((c _ _ _).comp f1)).mul ((c _ _ _).comp f2)

theorem cont_symGrad {X : Type*} [TopologicalSpace X] {n : ℕ} (g : X → Fin n → ℝ)
    (hg : ∀ p, Continuous fun x => g x p) (a c d : Fin n) :
    Continuous fun x => symGrad (g x) a c d := by
  unfold symGrad
  split_ifs
  · exact ((hg c).add (hg d)).div_const _
  · exact ((hg c).add continuous_const).div_const _
  · exact (continuous_const.add (hg d)).div_const _
  · exact continuous_const

/-- Gradient of an affine field from its nodal values. -/
theorem grad2_affine (h : Fin 2 → ℝ) (h0 : ∀ c, h c ≠ 0) (α : ℝ) (β : Fin 2 → ℝ) (x y : ℝ)
    (q : Fin 2) :
    ∑ j, (α + ∑ c, β c * ((bit2 j c).1 * h c)) * grad2 (phi2 h j) x y q = β q := by
  have a0 := h0 0
  have a1 := h0 1
  simp only [grad2_phi2, Fin.sum_univ_two, Fin.sum_univ_four]
  fin_cases q <;> simp [bit2, fac, hat0, hat1, dhat] <;> field_simp <;> ring

theorem grad3_affine (h : Fin 3 → ℝ) (h0 : ∀ c, h c ≠ 0) (α : ℝ) (β : Fin 3 → ℝ) (x y z : ℝ)
    (q : Fin 3) :
    ∑ j, (α + ∑ c, β c * ((bit3 j c).1 * h c)) * grad3 (phi3 h j) x y z q = β q := by
  have a0 := h0 0
  have a1 := h0 1
  have a2 := h0 2
  simp only [grad3_phi3, Fin.sum_univ_three, Fin.sum_univ_eight]
  fin_cases q <;> simp [bit3, fac, hat0, hat1, dhat] <;> field_simp <;> ring

/-- Strain of a nodal field given by gradients `g j` at a point. -/
noncomputable def strainOf {n N : ℕ} (g : Fin N → Fin n → ℝ) (x : Fin N × Fin n → ℝ)
    (c d : Fin n) : ℝ :=
  ∑ p, x p * symGrad (g p.1) p.2 c d

theorem strainOf_eq {n N : ℕ} (g : Fin N → Fin n → ℝ) (x : Fin N × Fin n → ℝ) (c d : Fin n) :
    strainOf g x c d = ((∑ i, x (i, d) * g i c) + ∑ i, x (i, c) * g i d) / 2 := by
  unfold strainOf symGrad
  rw [Fintype.sum_prod_type]
  have : ∀ i : Fin N, ∑ a, x (i, a) * (((if d = a then g i c else 0) + if c = a then g i d else 0) / 2)
      = (x (i, d) * g i c + x (i, c) * g i d) / 2 := by
    intro i
    have : ∀ a, x (i, a) * (((if d = a then g i c else 0) + if c = a then g i d else 0) / 2)
        = (if d = a then x (i, a) * g i c / 2 else 0)
          + (if c = a then x (i, a) * g i d / 2 else 0) := by
      intro a; split_ifs <;> ring
    simp only [this, Finset.sum_add_distrib, Finset.sum_ite_eq, Finset.mem_univ, if_true]
    ring
  simp only [this]
  rw [← Finset.sum_div, Finset.sum_add_distrib]

theorem strainOf_bilin {n N : ℕ} (g : Fin N → Fin n → ℝ) (x y : Fin N × Fin n → ℝ) :
    ∑ p, ∑ q, x p * y q * (2 * ∑ c, ∑ d, symGrad (g p.1) p.2 c d * symGrad (g q.1) q.2 c d) =
      2 * ∑ c, ∑ d, strainOf g x c d * strainOf g y c d := by
  simp only [Finset.mul_sum]
  have e : ∀ (f : Fin N × Fin n → Fin N × Fin n → Fin n → Fin n → ℝ),
      ∑ p, ∑ q, ∑ c, ∑ d, f p q c d = ∑ c, ∑ d, ∑ p, ∑ q, f p q c d := by
    intro f
    calc ∑ p, ∑ q, ∑ c, ∑ d, f p q c d
        = ∑ p, ∑ c, ∑ q, ∑ d, f p q c d := by
          exact Finset.sum_congr rfl fun p _ => Finset.sum_comm
      _ = ∑ c, ∑ p, ∑ q, ∑ d, f p q c d := Finset.sum_comm
      _ = ∑ c, ∑ p, ∑ d, ∑ q, f p q c d := by
          exact Finset.sum_congr rfl fun c _ => Finset.sum_congr rfl fun p _ => Finset.sum_comm
      _ = _ := Finset.sum_congr rfl fun c _ => Finset.sum_comm
  rw [e]
  refine Finset.sum_congr rfl fun c _ => Finset.sum_congr rfl fun d _ => ?_
  unfold strainOf
  rw [← sum_mul_sum', Finset.mul_sum]
  refine Finset.sum_congr rfl fun p _ => ?_
  rw [Finset.mul_sum]
  exact Finset.sum_congr rfl fun q _ => by ring

end Cafes.Spec
