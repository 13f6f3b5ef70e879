/-
Exchange of the two derivatives in the bilinear forms of the Q1 fields whose test field vanishes on the walls
(discrete integration by parts), the identity behind C98.
-/
import Verif.Lemmas.Exact
import Verif.Props.Operator
import Verif.Spec.Dirichlet

namespace Cafes.Props
open Cafes Cafes.Spec
variable {d n : ℕ}

/-- One-dimensional matrix assembled from the cell matrix `β`. -/
noncomputable def mat1 (D : Dir) (β : Fin 2 → Fin 2 → ℝ) (s t : ℤ) : ℝ :=
  ∑ e ∈ Finset.Ico (0 : ℤ) D.nElem, ∑ a : Fin 2, (if w1 D (e + ((a : ℕ) : ℤ)) = s then
    ∑ b : Fin 2, (if w1 D (e + ((b : ℕ) : ℤ)) = t then (1:ℝ) else 0) * β a b else 0)

/-- Away from the walls the matrix of `u' v` is the opposite of the matrix of `u v'`. -/
theorem mat1_anti (D : Dir) (h : ℝ) (s t : ℤ) (hs : Free1 D s) :
    mat1 D (fun a b => J true false a b h) s t = -mat1 D (fun a b => J false true a b h) s t := by
  rw [eq_neg_iff_add_eq_zero]
  have key := factor_stencil D s hs (fun a _ => if a = 1 then 1/2 else -1/2) (fun _ => 1) (fun _ _ => rfl)
  have h0 : st1 (fun a (_ : Fin 2) => if a = 1 then (1/2 : ℝ) else -1/2) (fun _ => 1) s = 0 := by
    simp [st1, Fin.sum_univ_two]; norm_num
  rw [h0] at key
  have e : mat1 D (fun a b => J true false a b h) s t + mat1 D (fun a b => J false true a b h) s t =
      (if s = t then (1:ℝ) else 0) * ∑ e ∈ Finset.Ico (0 : ℤ) D.nElem, ∑ a : Fin 2,
      (if w1 D (e + ((a : ℕ) : ℤ)) = s then ∑ b : Fin 2, (1:ℝ) * (if a = 1 then 1/2 else -1/2) else 0) := by
    unfold mat1
    rw [← Finset.sum_add_distrib, Finset.mul_sum]
    refine Finset.sum_congr rfl fun e _ => ?_
    simp only [Fin.sum_univ_two, J, s1, Fin.val_zero, Fin.val_one, Nat.cast_zero, Nat.cast_one, add_zero]
    by_cases h1 : w1 D e = s <;> by_cases h2 : w1 D (e + 1) = s <;> by_cases h3 : s = t <;>
      by_cases h4 : w1 D e = t <;> by_cases h5 : w1 D (e + 1) = t <;>
      simp_all <;> norm_num
  rw [e, key, mul_zero]

section form
variable {NE : ℕ} (L : Fin d → Dir) (elem : Pos d ℤ → Fin NE → Pos d ℤ)
variable (off : Fin NE → Fin d → Fin 2) (h : Pos d ℝ)

/-- The form of the derivative of `v` in direction `p` against the derivative of `u` in direction `q`. -/
noncomputable def bform (p q : Fin d) (v u : Pos d ℤ → ℝ) : ℝ :=
  ∑ e ∈ gridElems L, ∑ k1, ∑ k2, v (wrap L (elem e k1)) * u (wrap L (elem e k2)) *
    ∏ i, J (decide (p = i)) (decide (q = i)) (off k1 i) (off k2 i) (h i)

theorem bform_sten (hm : ∀ e ∈ gridElems L, ∀ k, wrap L (elem e k) ∈ gridNodes L) (p q : Fin d) (v u : Pos d ℤ → ℝ) :
    bform L elem off h p q v u = ∑ g ∈ gridNodes L, v g *
      sten L elem (fun k1 k2 => ∏ i, J (decide (p = i)) (decide (q = i)) (off k1 i) (off k2 i) (h i)) u g := by
  unfold bform sten
  simp only [Finset.mul_sum]
  refine Eq.trans ?_ Finset.sum_comm
  refine Finset.sum_congr rfl fun e he => ?_
  refine Eq.trans ?_ Finset.sum_comm
  refine Finset.sum_congr rfl fun k1 _ => ?_
  rw [Finset.sum_eq_single (wrap L (elem e k1))]
  · rw [if_pos rfl, Finset.mul_sum]
    exact Finset.sum_congr rfl fun k2 _ => by ring
  · intro g _ hg
    rw [if_neg hg.symm, mul_zero]
  · intro hn; exact absurd (hm e he k1) hn

/-- Decomposition on the nodes. -/
theorem sten_nodes (hm : ∀ e ∈ gridElems L, ∀ k, wrap L (elem e k) ∈ gridNodes L) (M : Fin NE → Fin NE → ℝ)
    (u : Pos d ℤ → ℝ) (g : Pos d ℤ) :
    sten L elem M u g = ∑ g' ∈ gridNodes L, u g' * sten L elem M (fun p => if p = g' then 1 else 0) g := by
  unfold sten
  simp only [Finset.mul_sum]
  refine Eq.trans ?_ Finset.sum_comm
  refine Finset.sum_congr rfl fun e he => ?_
  refine Eq.trans ?_ Finset.sum_comm
  refine Finset.sum_congr rfl fun k1 _ => ?_
  by_cases hk : wrap L (elem e k1) = g
  · simp only [hk, if_true, Finset.mul_sum]
    refine Eq.trans ?_ Finset.sum_comm
    refine Finset.sum_congr rfl fun k2 _ => ?_
    rw [Finset.sum_eq_single (wrap L (elem e k2))]
    · simp
    · intro b _ hb
      rw [if_neg hb.symm]; simp
    · intro hn; exact absurd (hm e he k2) hn
  · simp [hk]

variable (hbij : Function.Bijective off) (helem : ∀ e k i, elem e k i = e i + ((off k i : ℕ) : ℤ))
include hbij helem

/-- Entries of a tensor product operator. -/
theorem sten_entry (β : Fin d → Fin 2 → Fin 2 → ℝ) (g g' : Pos d ℤ) :
    sten L elem (fun k1 k2 => ∏ i, β i (off k1 i) (off k2 i)) (fun p => if p = g' then 1 else 0) g =
      ∏ i, mat1 (L i) (β i) (g i) (g' i) := by
  unfold sten
  have hprod : ∀ p : Pos d ℤ, (if p = g' then (1:ℝ) else 0) = ∏ i, (if p i = g' i then (1:ℝ) else 0) := by
    intro p
    by_cases hp : p = g'
    · simp [hp]
    · obtain ⟨i, hi⟩ := Function.ne_iff.1 hp
      rw [if_neg hp]
      exact (Finset.prod_eq_zero (Finset.mem_univ i) (if_neg hi)).symm
  have h1 : ∀ e : Pos d ℤ, (∑ k1, if wrap L (elem e k1) = g then
      ∑ k2, (if wrap L (elem e k2) = g' then (1:ℝ) else 0) * ∏ i, β i (off k1 i) (off k2 i) else 0) =
      ∑ t : Fin d → Fin 2, ∏ i, (if w1 (L i) (e i + ((t i : ℕ) : ℤ)) = g i then
        ∑ b : Fin 2, (if w1 (L i) (e i + ((b : ℕ) : ℤ)) = g' i then (1:ℝ) else 0) * β i (t i) b else 0) := by
    intro e
    rw [← hbij.sum_comp (fun t : Fin d → Fin 2 => ∏ i, (if w1 (L i) (e i + ((t i : ℕ) : ℤ)) = g i then
        ∑ b : Fin 2, (if w1 (L i) (e i + ((b : ℕ) : ℤ)) = g' i then (1:ℝ) else 0) * β i (t i) b else 0))]
    refine Finset.sum_congr rfl fun k _ => ?_
    rw [Finset.prod_ite_zero]
    have hiff : wrap L (elem e k) = g ↔ ∀ i ∈ Finset.univ, w1 (L i) (e i + ((off k i : ℕ) : ℤ)) = g i := by
      rw [funext_iff]
      simp only [wrap_apply, helem e k, Finset.mem_univ, true_imp_iff]
    simp only [hiff]
    split_ifs
    · rw [← sum_fun_prod (fun i (b : Fin 2) => (if w1 (L i) (e i + ((b : ℕ) : ℤ)) = g' i then (1:ℝ) else 0) *
          β i (off k i) b),
        ← hbij.sum_comp (fun t : Fin d → Fin 2 => ∏ i, (if w1 (L i) (e i + ((t i : ℕ) : ℤ)) = g' i then (1:ℝ) else 0) *
          β i (off k i) (t i))]
      refine Finset.sum_congr rfl fun k2 _ => ?_
      rw [hprod, ← Finset.prod_mul_distrib]
      exact Finset.prod_congr rfl fun i _ => by rw [wrap_apply, helem]
    · rfl
  rw [Finset.sum_congr rfl fun e _ => h1 e]
  unfold gridElems
  rw [sum_prod_gen (fun i => Finset.Ico 0 (L i).nElem) (fun i x (t : Fin 2) =>
    (if w1 (L i) (x + ((t : ℕ) : ℤ)) = g i then
        ∑ b : Fin 2, (if w1 (L i) (x + ((b : ℕ) : ℤ)) = g' i then (1:ℝ) else 0) * β i t b else 0))]
  rfl

/-- The two derivatives may be exchanged when the test field vanishes on the walls. -/
theorem bform_swap (hm : ∀ e ∈ gridElems L, ∀ k, wrap L (elem e k) ∈ gridNodes L) (p q : Fin d) (v u : Pos d ℤ → ℝ)
    (hv : ∀ g ∈ gridNodes L, ∀ f, OnFace L g f → v g = 0) :
    bform L elem off h p q v u = bform L elem off h q p v u := by
  by_cases hpq : p = q
  · rw [hpq]
  rw [bform_sten L elem off h hm, bform_sten L elem off h hm]
  refine Finset.sum_congr rfl fun g hg => ?_
  by_cases hz : v g = 0
  · rw [hz, zero_mul, zero_mul]
  have hfree : ∀ i, Free1 (L i) (g i) := by
    intro i
    have hgi := (mem_gridNodes L g).1 hg i
    refine ⟨hgi.1, hgi.2, fun hp => ⟨fun h0 => hz ?_, fun h0 => hz ?_⟩⟩
    · exact hv g hg (2 * i.1) ⟨i, hp, Or.inl ⟨rfl, h0⟩⟩
    · exact hv g hg (2 * i.1 + 1) ⟨i, hp, Or.inr ⟨rfl, h0⟩⟩
  congr 1
  rw [sten_nodes L elem hm, sten_nodes L elem hm]
  refine Finset.sum_congr rfl fun g' _ => ?_
  congr 1
  rw [sten_entry L elem off hbij helem (fun i a b => J (decide (p = i)) (decide (q = i)) a b (h i)),
    sten_entry L elem off hbij helem (fun i a b => J (decide (q = i)) (decide (p = i)) a b (h i))]
  have step : ∀ i, mat1 (L i) (fun a b => J (decide (p = i)) (decide (q = i)) a b (h i)) (g i) (g' i) =
      (if p = i then (-1 : ℝ) else 1) * (if q = i then (-1 : ℝ) else 1) *
        mat1 (L i) (fun a b => J (decide (q = i)) (decide (p = i)) a b (h i)) (g i) (g' i) := by
    intro i
    by_cases h1 : p = i
    · have h2 : ¬ q = i := fun hq => hpq (h1.trans hq.symm)
      simp only [h1, h2, decide_true, decide_false, if_true, if_false]
      rw [mat1_anti (L i) (h i) _ _ (hfree i)]; ring
    · by_cases h2 : q = i
      · simp only [h1, h2, decide_true, decide_false, if_true, if_false]
        rw [mat1_anti (L i) (h i) _ _ (hfree i)]; ring
      · simp only [h1, h2, decide_false, if_false]; ring
  rw [Finset.prod_congr rfl fun i _ => step i, Finset.prod_mul_distrib, Finset.prod_mul_distrib]
  simp

end form

/-- The strain form is the Laplacian form plus the form with exchanged derivatives. -/
theorem strain_split {NE : ℕ} (L : Fin d → Dir) (hL : ∀ i, (L i).WF) (elem : Pos d ℤ → Fin NE → Pos d ℤ) (hel : IsQ1 elem)
    (off : Fin NE → Fin d → Fin 2) (h : Pos d ℝ) (M : Fin NE → Fin NE → Fin d → Fin d → ℝ) (K : Fin NE → Fin NE → ℝ)
    (hM : ∀ k1 k2 a b, M k1 k2 a b = ∑ p, ∑ q, strainCoef a b p q *
      ∏ i, J (decide (p = i)) (decide (q = i)) (off k1 i) (off k2 i) (h i))
    (hK : ∀ k1 k2, K k1 k2 = ∑ p, ∏ i, J (decide (p = i)) (decide (p = i)) (off k1 i) (off k2 i) (h i))
    (v u : NodeVec d d ℝ) :
    dot L v (blockMatrix L (tensorBlockMult L elem M) u) = dot L v (blockMatrix L (diagBlockMult L elem K) u) +
      ∑ a, ∑ b, bform L elem off h b a (fun g => v g a) (fun g => u g b) := by
  rw [dot_tensorBlock L hL elem hel, dot_diagBlock L hL elem hel]
  have e1 : ∑ a, ∑ b, bform L elem off h b a (fun g => v g a) (fun g => u g b) = ∑ e ∈ gridElems L, ∑ k1, ∑ a,
      v (wrap L (elem e k1)) a * ∑ k2, ∑ b, u (wrap L (elem e k2)) b *
        ∏ i, J (decide (b = i)) (decide (a = i)) (off k1 i) (off k2 i) (h i) := by
    unfold bform
    simp only [Finset.mul_sum]
    have : ∀ a : Fin d, ∑ b, ∑ e ∈ gridElems L, ∑ k1, ∑ k2, v (wrap L (elem e k1)) a * u (wrap L (elem e k2)) b *
        ∏ i, J (decide (b = i)) (decide (a = i)) (off k1 i) (off k2 i) (h i) =
        ∑ e ∈ gridElems L, ∑ k1, ∑ k2, ∑ b, v (wrap L (elem e k1)) a * (u (wrap L (elem e k2)) b *
        ∏ i, J (decide (b = i)) (decide (a = i)) (off k1 i) (off k2 i) (h i)) := by
      intro a
      rw [Finset.sum_comm]
      refine Finset.sum_congr rfl fun e _ => ?_
      rw [Finset.sum_comm]
      refine Finset.sum_congr rfl fun k1 _ => ?_
      rw [Finset.sum_comm]
      exact Finset.sum_congr rfl fun k2 _ => Finset.sum_congr rfl fun b _ => by ring
    simp only [this]
    rw [Finset.sum_comm]
    refine Finset.sum_congr rfl fun e _ => ?_
    rw [Finset.sum_comm]
  rw [e1, ← Finset.sum_add_distrib]
  refine Finset.sum_congr rfl fun e _ => ?_
  rw [← Finset.sum_add_distrib]
  refine Finset.sum_congr rfl fun k1 _ => ?_
  rw [← Finset.sum_add_distrib]
  refine Finset.sum_congr rfl fun a _ => ?_
  rw [← mul_add, ← Finset.sum_add_distrib]
  congr 1
  refine Finset.sum_congr rfl fun k2 _ => ?_
  have e2 : ∀ b, M k1 k2 a b = (if a = b then K k1 k2 else 0) +
      ∏ i, J (decide (b = i)) (decide (a = i)) (off k1 i) (off k2 i) (h i) := by
    intro b
    rw [hM, hK]
    simp only [strainCoef, add_mul, Finset.sum_add_distrib]
    congr 1
    · by_cases hcb : a = b
      · simp [hcb]
      · simp [hcb]
    · simp only [ite_and, ite_mul, one_mul, zero_mul]
      simp
  simp only [e2, mul_add, Finset.sum_add_distrib]
  congr 1
  simp

/-- The Laplacian form as a sum of forms. -/
theorem lap_bform {NE : ℕ} (L : Fin d → Dir) (hL : ∀ i, (L i).WF) (elem : Pos d ℤ → Fin NE → Pos d ℤ) (hel : IsQ1 elem)
    (off : Fin NE → Fin d → Fin 2) (h : Pos d ℝ) (K : Fin NE → Fin NE → ℝ)
    (hK : ∀ k1 k2, K k1 k2 = ∑ p, ∏ i, J (decide (p = i)) (decide (p = i)) (off k1 i) (off k2 i) (h i))
    (v u : NodeVec d d ℝ) :
    dot L v (blockMatrix L (diagBlockMult L elem K) u) =
      ∑ a, ∑ b, bform L elem off h b b (fun g => v g a) (fun g => u g a) := by
  rw [dot_diagBlock L hL elem hel]
  unfold bform
  simp only [Finset.mul_sum, hK]
  have : ∀ a : Fin d, ∑ b, ∑ e ∈ gridElems L, ∑ k1, ∑ k2, v (wrap L (elem e k1)) a * u (wrap L (elem e k2)) a *
      ∏ i, J (decide (b = i)) (decide (b = i)) (off k1 i) (off k2 i) (h i) =
      ∑ e ∈ gridElems L, ∑ k1, ∑ k2, ∑ b, v (wrap L (elem e k1)) a * (u (wrap L (elem e k2)) a *
      ∏ i, J (decide (b = i)) (decide (b = i)) (off k1 i) (off k2 i) (h i)) := by
    intro a
    rw [Finset.sum_comm]
    refine Finset.sum_congr rfl fun e _ => ?_
    rw [Finset.sum_comm]
    refine Finset.sum_congr rfl fun k1 _ => ?_
    rw [Finset.sum_comm]
    exact Finset.sum_congr rfl fun k2 _ => Finset.sum_congr rfl fun b _ => by ring
  simp only [this]
  symm
  rw [Finset.sum_comm]
  refine Finset.sum_congr rfl fun e _ => ?_
  rw [Finset.sum_comm]

section psd
variable {NE : ℕ} (L : Fin d → Dir) (elem : Pos d ℤ → Fin NE → Pos d ℤ)
variable (off : Fin NE → Fin d → Fin 2) (h : Pos d ℝ)
variable (hG : ∀ c : Fin NE × Fin d → ℝ, 0 ≤ ∑ x : Fin NE × Fin d, ∑ y : Fin NE × Fin d, c x * c y *
  ∏ i, J (decide (x.2 = i)) (decide (y.2 = i)) (off x.1 i) (off y.1 i) (h i))
include hG

/-- The form of the divergences is positive. -/
theorem div_nonneg (u : NodeVec d d ℝ) :
    0 ≤ ∑ a, ∑ b, bform L elem off h a b (fun g => u g a) (fun g => u g b) := by
  have : ∑ a, ∑ b, bform L elem off h a b (fun g => u g a) (fun g => u g b) = ∑ e ∈ gridElems L,
      ∑ x : Fin NE × Fin d, ∑ y : Fin NE × Fin d, u (wrap L (elem e x.1)) x.2 * u (wrap L (elem e y.1)) y.2 *
        ∏ i, J (decide (x.2 = i)) (decide (y.2 = i)) (off x.1 i) (off y.1 i) (h i) := by
    unfold bform
    simp only [Fintype.sum_prod_type]
    have : ∀ a : Fin d, ∑ b, ∑ e ∈ gridElems L, ∑ k1, ∑ k2, u (wrap L (elem e k1)) a * u (wrap L (elem e k2)) b *
        ∏ i, J (decide (a = i)) (decide (b = i)) (off k1 i) (off k2 i) (h i) =
        ∑ e ∈ gridElems L, ∑ k1, ∑ k2, ∑ b, u (wrap L (elem e k1)) a * u (wrap L (elem e k2)) b *
        ∏ i, J (decide (a = i)) (decide (b = i)) (off k1 i) (off k2 i) (h i) := by
      intro a
      rw [Finset.sum_comm]
      refine Finset.sum_congr rfl fun e _ => ?_
      rw [Finset.sum_comm]
      refine Finset.sum_congr rfl fun k1 _ => ?_
      rw [Finset.sum_comm]
    simp only [this]
    rw [Finset.sum_comm]
    refine Finset.sum_congr rfl fun e _ => ?_
    rw [Finset.sum_comm]
  rw [this]
  exact Finset.sum_nonneg fun e _ => hG fun x => u (wrap L (elem e x.1)) x.2

theorem curl_nonneg (a b : Fin d) (u w : Pos d ℤ → ℝ) :
    0 ≤ bform L elem off h b b u u - bform L elem off h b a u w - bform L elem off h a b w u +
      bform L elem off h a a w w := by
  unfold bform
  rw [← Finset.sum_sub_distrib, ← Finset.sum_sub_distrib, ← Finset.sum_add_distrib]
  refine Finset.sum_nonneg fun e _ => ?_
  refine le_of_le_of_eq (hG fun x => (if x.2 = b then u (wrap L (elem e x.1)) else 0) -
    (if x.2 = a then w (wrap L (elem e x.1)) else 0)) ?_
  rw [← Finset.sum_sub_distrib, ← Finset.sum_sub_distrib, ← Finset.sum_add_distrib, Fintype.sum_prod_type]
  refine Finset.sum_congr rfl fun k1 _ => ?_
  rw [← Finset.sum_sub_distrib, ← Finset.sum_sub_distrib, ← Finset.sum_add_distrib]
  simp only [Fintype.sum_prod_type]
  rw [Finset.sum_comm]
  refine Finset.sum_congr rfl fun k2 _ => ?_
  have e : ∀ p q : Fin d, ((if p = b then u (wrap L (elem e k1)) else 0) - (if p = a then w (wrap L (elem e k1)) else 0)) *
      ((if q = b then u (wrap L (elem e k2)) else 0) - (if q = a then w (wrap L (elem e k2)) else 0)) *
      ∏ i, J (decide (p = i)) (decide (q = i)) (off k1 i) (off k2 i) (h i) =
      (if p = b then (if q = b then u (wrap L (elem e k1)) * u (wrap L (elem e k2)) *
        ∏ i, J (decide (p = i)) (decide (q = i)) (off k1 i) (off k2 i) (h i) else 0) else 0) -
      (if p = b then (if q = a then u (wrap L (elem e k1)) * w (wrap L (elem e k2)) *
        ∏ i, J (decide (p = i)) (decide (q = i)) (off k1 i) (off k2 i) (h i) else 0) else 0) -
      (if p = a then (if q = b then w (wrap L (elem e k1)) * u (wrap L (elem e k2)) *
        ∏ i, J (decide (p = i)) (decide (q = i)) (off k1 i) (off k2 i) (h i) else 0) else 0) +
      (if p = a then (if q = a then w (wrap L (elem e k1)) * w (wrap L (elem e k2)) *
        ∏ i, J (decide (p = i)) (decide (q = i)) (off k1 i) (off k2 i) (h i) else 0) else 0) := by
    intro p q
    split_ifs <;> ring
  simp only [e, Finset.sum_add_distrib, Finset.sum_sub_distrib, Finset.sum_ite_eq', Finset.mem_univ, if_true]
  simp

/-- The exchanged form is below the Laplacian form. -/
theorem exchanged_le (u : NodeVec d d ℝ) :
    ∑ a, ∑ b, bform L elem off h b a (fun g => u g a) (fun g => u g b) ≤
      ∑ a, ∑ b, bform L elem off h b b (fun g => u g a) (fun g => u g a) := by
  have key : 0 ≤ ∑ a, ∑ b, (bform L elem off h b b (fun g => u g a) (fun g => u g a) -
      bform L elem off h b a (fun g => u g a) (fun g => u g b) -
      bform L elem off h a b (fun g => u g b) (fun g => u g a) +
      bform L elem off h a a (fun g => u g b) (fun g => u g b)) :=
    Finset.sum_nonneg fun a _ => Finset.sum_nonneg fun b _ =>
      curl_nonneg L elem off h hG a b (fun g => u g a) (fun g => u g b)
  simp only [Finset.sum_add_distrib, Finset.sum_sub_distrib] at key
  have e1 : ∑ a, ∑ b, bform L elem off h a b (fun g => u g b) (fun g => u g a) =
      ∑ a, ∑ b, bform L elem off h b a (fun g => u g a) (fun g => u g b) := Finset.sum_comm
  have e2 : ∑ a, ∑ b, bform L elem off h a a (fun g => u g b) (fun g => u g b) =
      ∑ a, ∑ b, bform L elem off h b b (fun g => u g a) (fun g => u g a) := Finset.sum_comm
  rw [e1, e2] at key
  linarith

end psd

end Cafes.Props
