/-
Action of the element operators on polynomials of degree two: each operator is a tensor product of
one-dimensional stencils, and the stencils are exact on the monomials.
-/
import Verif.Lemmas.GradKernel
import Verif.Lemmas.Flux
import Verif.Lemmas.Flow

namespace Cafes.Props
open Cafes Cafes.Spec
variable {d n : ℕ}

/-! ### One direction, velocity cells -/

/-- Wrap-around in one direction. -/
def w1 (D : Dir) (t : ℤ) : ℤ := if D.periodic then t % D.m else t

theorem wrap_apply (L : Fin d → Dir) (p : Pos d ℤ) (i : Fin d) : wrap L p i = w1 (L i) (p i) := rfl

/-- Three point stencil assembled from the cells on both sides of a node. -/
def st1 (β : Fin 2 → Fin 2 → ℝ) (φ : ℤ → ℝ) (g : ℤ) : ℝ :=
  ∑ a : Fin 2, ∑ b : Fin 2, φ (g - ((a : ℕ) : ℤ) + ((b : ℕ) : ℤ)) * β a b

/-- Node `g` of the direction `D` is not on a wall. -/
def Free1 (D : Dir) (g : ℤ) : Prop :=
  0 ≤ g ∧ g < D.m ∧ (D.periodic = false → g ≠ 0 ∧ g ≠ D.m - 1)

theorem factor_stencil (D : Dir) (g : ℤ) (hg : Free1 D g) (β : Fin 2 → Fin 2 → ℝ) (φ : ℤ → ℝ)
    (hφ : D.periodic = true → ∀ t, φ t = φ 0) :
    ∑ e ∈ Finset.Ico (0 : ℤ) D.nElem, ∑ a : Fin 2,
      (if w1 D (e + ((a : ℕ) : ℤ)) = g then ∑ b : Fin 2, φ (w1 D (e + ((b : ℕ) : ℤ))) * β a b else 0) =
      st1 β φ g := by
  obtain ⟨g0, g1, g2⟩ := hg
  unfold st1
  rw [Finset.sum_comm]
  refine Finset.sum_congr rfl fun a _ => ?_
  have ha := a.2
  by_cases hp : D.periodic = true
  · have hc := hφ hp
    simp only [w1, hp, if_true, Dir.nElem, hc]
    rw [Finset.sum_eq_single ((g - ((a : ℕ) : ℤ)) % D.m), if_pos]
    · rw [Int.emod_add_emod, sub_add_cancel]; exact Int.emod_eq_of_lt g0 g1
    · intro e he hne
      rw [Finset.mem_Ico] at he
      refine if_neg fun h => hne ?_
      rw [← h, Int.emod_sub_emod, add_sub_cancel_right]
      exact (Int.emod_eq_of_lt he.1 he.2).symm
    · intro h
      exact absurd (Finset.mem_Ico.2 ⟨Int.emod_nonneg _ (by omega), Int.emod_lt_of_pos _ (by omega)⟩) h
  · have hp' : D.periodic = false := by simpa using hp
    obtain ⟨h0, h1⟩ := g2 hp'
    simp only [w1, hp', Bool.false_eq_true, if_false, Dir.nElem]
    rw [Finset.sum_eq_single (g - ((a : ℕ) : ℤ)), if_pos (by omega)]
    · intro e _ hne
      exact if_neg (by omega)
    · intro h
      exact absurd (Finset.mem_Ico.2 ⟨by omega, by omega⟩) h

/-- Values of the four stencils on the monomials. -/
theorem st1_mass (h : ℝ) (g : ℤ) : st1 (fun a b => J false false a b h) (fun t => ((t : ℝ) * h) ^ 0) g = h := by
  simp [st1, Fin.sum_univ_two, J, m1]; ring

theorem st1_stiff (h : ℝ) (g : ℤ) (k : ℕ) (hk : k ≤ 2) :
    st1 (fun a b => J true true a b h) (fun t => ((t : ℝ) * h) ^ k) g = if k = 2 then -2 * h else 0 := by
  by_cases hh : h = 0
  · interval_cases k <;> simp [st1, Fin.sum_univ_two, J, hh]
  · interval_cases k <;> simp [st1, Fin.sum_univ_two, J, k1] <;> field_simp <;> ring

theorem st1_left (h : ℝ) (g : ℤ) (k : ℕ) (hk : k ≤ 1) :
    st1 (fun a b => J true false a b h) (fun t => ((t : ℝ) * h) ^ k) g = if k = 1 then -h else 0 := by
  interval_cases k <;> simp [st1, Fin.sum_univ_two, J, s1] <;> ring

theorem st1_right (h : ℝ) (g : ℤ) (k : ℕ) (hk : k ≤ 1) :
    st1 (fun a b => J false true a b h) (fun t => ((t : ℝ) * h) ^ k) g = if k = 1 then h else 0 := by
  interval_cases k <;> simp [st1, Fin.sum_univ_two, J, s1] <;> ring

/-! ### Tensor products -/

theorem sum_prod_gen {τ : Type*} [Fintype τ] [DecidableEq τ] (s : Fin d → Finset ℤ) (f : Fin d → ℤ → τ → ℝ) :
    ∑ e ∈ Fintype.piFinset s, ∑ t : Fin d → τ, ∏ i, f i (e i) (t i)
      = ∏ i, ∑ e ∈ s i, ∑ t, f i e t := by
  rw [Finset.prod_univ_sum]
  refine Finset.sum_congr rfl fun e _ => ?_
  rw [Finset.prod_univ_sum]
  simp

theorem sum_fun_prod {τ : Type*} [Fintype τ] [DecidableEq τ] (f : Fin d → τ → ℝ) :
    ∑ t : Fin d → τ, ∏ i, f i (t i) = ∏ i, ∑ t, f i t := by
  rw [Finset.prod_univ_sum]; simp

/-- The value at node `g` of the scalar operator of element matrix `M`. -/
def sten {NE : ℕ} (L : Fin d → Dir) (elem : Pos d ℤ → Fin NE → Pos d ℤ) (M : Fin NE → Fin NE → ℝ)
    (x : Pos d ℤ → ℝ) (g : Pos d ℤ) : ℝ :=
  ∑ e ∈ gridElems L, ∑ k1, if wrap L (elem e k1) = g then ∑ k2, x (wrap L (elem e k2)) * M k1 k2 else 0

section sten
variable {NE : ℕ} (L : Fin d → Dir) (elem : Pos d ℤ → Fin NE → Pos d ℤ)

theorem sten_comb {ι : Type*} (s : Finset ι) (c : ι → ℝ) (M : ι → Fin NE → Fin NE → ℝ) (x : Pos d ℤ → ℝ)
    (g : Pos d ℤ) : sten L elem (fun k1 k2 => ∑ i ∈ s, c i * M i k1 k2) x g =
      ∑ i ∈ s, c i * sten L elem (M i) x g := by
  unfold sten
  simp only [Finset.mul_sum]
  refine Eq.trans ?_ Finset.sum_comm
  refine Finset.sum_congr rfl fun e _ => ?_
  refine Eq.trans ?_ Finset.sum_comm
  refine Finset.sum_congr rfl fun k _ => ?_
  split_ifs
  · simp only [Finset.mul_sum]
    refine Eq.trans ?_ Finset.sum_comm
    exact Finset.sum_congr rfl fun j _ => Finset.sum_congr rfl fun i _ => by ring
  · simp

theorem sten_add (M : Fin NE → Fin NE → ℝ) (x y : Pos d ℤ → ℝ) (g : Pos d ℤ) :
    sten L elem M (fun p => x p + y p) g = sten L elem M x g + sten L elem M y g := by
  unfold sten
  rw [← Finset.sum_add_distrib]
  refine Finset.sum_congr rfl fun e _ => ?_
  rw [← Finset.sum_add_distrib]
  refine Finset.sum_congr rfl fun k _ => ?_
  split_ifs
  · rw [← Finset.sum_add_distrib]
    exact Finset.sum_congr rfl fun j _ => by ring
  · ring

theorem sten_smul (M : Fin NE → Fin NE → ℝ) (c : ℝ) (x : Pos d ℤ → ℝ) (g : Pos d ℤ) :
    sten L elem M (fun p => c * x p) g = c * sten L elem M x g := by
  unfold sten
  rw [Finset.mul_sum]
  refine Finset.sum_congr rfl fun e _ => ?_
  rw [Finset.mul_sum]
  refine Finset.sum_congr rfl fun k _ => ?_
  split_ifs
  · rw [Finset.mul_sum]
    exact Finset.sum_congr rfl fun j _ => by ring
  · ring

theorem sten_zero (M : Fin NE → Fin NE → ℝ) (g : Pos d ℤ) : sten L elem M (fun _ => 0) g = 0 := by
  have := sten_smul L elem M 0 (fun _ => 0) g
  simpa using this

theorem sten_sum {ι : Type*} (s : Finset ι) (M : Fin NE → Fin NE → ℝ) (x : ι → Pos d ℤ → ℝ) (g : Pos d ℤ) :
    sten L elem M (fun p => ∑ i ∈ s, x i p) g = ∑ i ∈ s, sten L elem M (x i) g := by
  classical
  induction s using Finset.induction_on with
  | empty => simpa using sten_zero L elem M g
  | insert a s ha ih =>
    simp only [Finset.sum_insert ha]
    rw [sten_add, ih]

variable (off : Fin NE → Fin d → Fin 2) (hbij : Function.Bijective off)
  (helem : ∀ e k i, elem e k i = e i + ((off k i : ℕ) : ℤ))
include hbij helem

/-- A tensor product operator on a product of functions of one variable. -/
theorem sten_prod (β : Fin d → Fin 2 → Fin 2 → ℝ) (φ : Fin d → ℤ → ℝ)
    (hφ : ∀ i, (L i).periodic = true → ∀ t, φ i t = φ i 0) (g : Pos d ℤ) (hg : ∀ i, Free1 (L i) (g i)) :
    sten L elem (fun k1 k2 => ∏ i, β i (off k1 i) (off k2 i)) (fun p => ∏ i, φ i (p i)) g =
      ∏ i, st1 (β i) (φ i) (g i) := by
  unfold sten
  have h1 : ∀ e : Pos d ℤ, (∑ k1, if wrap L (elem e k1) = g then
      ∑ k2, (∏ i, φ i (wrap L (elem e k2) i)) * ∏ i, β i (off k1 i) (off k2 i) else 0) =
      ∑ t : Fin d → Fin 2, ∏ i, (if w1 (L i) (e i + ((t i : ℕ) : ℤ)) = g i then
        ∑ b : Fin 2, φ i (w1 (L i) (e i + ((b : ℕ) : ℤ))) * β i (t i) b else 0) := by
    intro e
    rw [← hbij.sum_comp (fun t : Fin d → Fin 2 => ∏ i, (if w1 (L i) (e i + ((t i : ℕ) : ℤ)) = g i then
        ∑ b : Fin 2, φ i (w1 (L i) (e i + ((b : ℕ) : ℤ))) * β i (t i) b else 0))]
    refine Finset.sum_congr rfl fun k _ => ?_
    rw [Finset.prod_ite_zero]
    have hiff : wrap L (elem e k) = g ↔ ∀ i ∈ Finset.univ, w1 (L i) (e i + ((off k i : ℕ) : ℤ)) = g i := by
      rw [funext_iff]
      simp only [wrap_apply, helem e k, Finset.mem_univ, true_imp_iff]
    simp only [hiff]
    split_ifs
    · rw [← sum_fun_prod (fun i (b : Fin 2) => φ i (w1 (L i) (e i + ((b : ℕ) : ℤ))) * β i (off k i) b),
        ← hbij.sum_comp (fun t : Fin d → Fin 2 => ∏ i, φ i (w1 (L i) (e i + ((t i : ℕ) : ℤ))) * β i (off k i) (t i))]
      refine Finset.sum_congr rfl fun k2 _ => ?_
      rw [← Finset.prod_mul_distrib]
      exact Finset.prod_congr rfl fun i _ => by rw [wrap_apply, helem]
    · rfl
  rw [Finset.sum_congr rfl fun e _ => h1 e]
  unfold gridElems
  rw [sum_prod_gen (fun i => Finset.Ico 0 (L i).nElem) (fun i x (t : Fin 2) =>
    (if w1 (L i) (x + ((t : ℕ) : ℤ)) = g i then
        ∑ b : Fin 2, φ i (w1 (L i) (x + ((b : ℕ) : ℤ))) * β i t b else 0))]
  exact Finset.prod_congr rfl fun i _ => factor_stencil (L i) (g i) (hg i) (β i) (φ i) (hφ i)

end sten

/-! ### Monomials -/

/-- Exponents of `x_j`. -/
def ex1 (j : Fin d) : Fin d → ℕ := fun i => if j = i then 1 else 0
/-- Exponents of `x_j x_k`. -/
def ex2 (j k : Fin d) : Fin d → ℕ := fun i => ex1 j i + ex1 k i

theorem prod_ex0 (x : Fin d → ℝ) : ∏ i, x i ^ (0 : ℕ) = 1 := by simp

theorem prod_ex1 (x : Fin d → ℝ) (j : Fin d) : ∏ i, x i ^ ex1 j i = x j := by
  unfold ex1
  rw [Finset.prod_pow_boole]; simp

theorem prod_ex2 (x : Fin d → ℝ) (j k : Fin d) : ∏ i, x i ^ ex2 j k i = x j * x k := by
  unfold ex2
  simp only [pow_add, Finset.prod_mul_distrib, prod_ex1]

theorem ex1_le (j i : Fin d) : ex1 j i ≤ 1 := by unfold ex1; split_ifs <;> omega

section mono
variable {NE : ℕ} (L : Fin d → Dir) (elem : Pos d ℤ → Fin NE → Pos d ℤ)
  (off : Fin NE → Fin d → Fin 2) (hbij : Function.Bijective off)
  (helem : ∀ e k i, elem e k i = e i + ((off k i : ℕ) : ℤ))
include hbij helem

theorem sten_mono (β : Fin d → Fin 2 → Fin 2 → ℝ) (h : Pos d ℝ) (α : Fin d → ℕ)
    (hα : ∀ i, (L i).periodic = true → α i = 0) (g : Pos d ℤ) (hg : ∀ i, Free1 (L i) (g i)) :
    sten L elem (fun k1 k2 => ∏ i, β i (off k1 i) (off k2 i)) (fun p => ∏ i, ((p i : ℝ) * h i) ^ α i) g =
      ∏ i, st1 (β i) (fun t => ((t : ℝ) * h i) ^ α i) (g i) :=
  sten_prod L elem off hbij helem β (fun i t => ((t : ℝ) * h i) ^ α i)
    (fun i hp t => by simp [hα i hp]) g hg

/-- The operator on a polynomial of degree two that does not depend on the periodic coordinates. -/
theorem sten_quad (β : Fin d → Fin 2 → Fin 2 → ℝ) (h : Pos d ℝ) (a : ℝ) (G : Fin d → ℝ)
    (H : Fin d → Fin d → ℝ) (hG : ∀ i, (L i).periodic = true → G i = 0)
    (hH : ∀ i, (L i).periodic = true → ∀ k, H i k = 0 ∧ H k i = 0)
    (g : Pos d ℤ) (hg : ∀ i, Free1 (L i) (g i)) :
    sten L elem (fun k1 k2 => ∏ i, β i (off k1 i) (off k2 i)) (fun p => quad a G H fun i => (p i : ℝ) * h i) g =
      a * ∏ i, st1 (β i) (fun t => ((t : ℝ) * h i) ^ 0) (g i) +
      ∑ j, G j * ∏ i, st1 (β i) (fun t => ((t : ℝ) * h i) ^ ex1 j i) (g i) +
      ∑ j, ∑ k, H j k * ∏ i, st1 (β i) (fun t => ((t : ℝ) * h i) ^ ex2 j k i) (g i) := by
  have e0 : (fun p : Pos d ℤ => quad a G H fun i => (p i : ℝ) * h i) = fun p =>
      (a * ∏ i, ((p i : ℝ) * h i) ^ (0:ℕ) + ∑ j, G j * ∏ i, ((p i : ℝ) * h i) ^ ex1 j i) +
      ∑ j, ∑ k, H j k * ∏ i, ((p i : ℝ) * h i) ^ ex2 j k i := by
    funext p
    simp only [quad, prod_ex0, prod_ex1 (fun i => (p i : ℝ) * h i), prod_ex2 (fun i => (p i : ℝ) * h i),
      mul_one]
  rw [e0, sten_add, sten_add, sten_sum, sten_sum]
  congr 1
  · congr 1
    · rw [sten_smul]
      rw [sten_mono L elem off hbij helem β h (fun _ => 0) (fun _ _ => rfl) g hg]
    · refine Finset.sum_congr rfl fun j _ => ?_
      rw [sten_smul]
      by_cases hp : (L j).periodic = true
      · rw [hG j hp, zero_mul, zero_mul]
      · rw [sten_mono L elem off hbij helem β h (ex1 j) (fun i hi => ?_) g hg]
        unfold ex1
        rw [if_neg]; rintro rfl; exact hp hi
  · refine Finset.sum_congr rfl fun j _ => ?_
    rw [sten_sum]
    refine Finset.sum_congr rfl fun k _ => ?_
    rw [sten_smul]
    by_cases hp : (L j).periodic = true
    · rw [(hH j hp k).1, zero_mul, zero_mul]
    · by_cases hq : (L k).periodic = true
      · rw [(hH k hq j).2, zero_mul, zero_mul]
      · rw [sten_mono L elem off hbij helem β h (ex2 j k) (fun i hi => ?_) g hg]
        unfold ex2 ex1
        rw [if_neg, if_neg]
        · rintro rfl; exact hq hi
        · rintro rfl; exact hp hi

/-- Product of derivatives `p` and `q`: minus the second derivative, times the volume of a cell. -/
theorem sten_second (h : Pos d ℝ) (p q : Fin d) (a : ℝ) (G : Fin d → ℝ)
    (H : Fin d → Fin d → ℝ) (hG : ∀ i, (L i).periodic = true → G i = 0)
    (hH : ∀ i, (L i).periodic = true → ∀ k, H i k = 0 ∧ H k i = 0)
    (g : Pos d ℤ) (hg : ∀ i, Free1 (L i) (g i)) :
    sten L elem (fun k1 k2 => ∏ i, J (decide (p = i)) (decide (q = i)) (off k1 i) (off k2 i) (h i))
      (fun y => quad a G H fun i => (y i : ℝ) * h i) g = -(H p q + H q p) * ∏ i, h i := by
  rw [sten_quad L elem off hbij helem (fun i a b => J (decide (p = i)) (decide (q = i)) a b (h i))
    h a G H hG hH g hg]
  set S : Fin d → ℕ → ℝ := fun i m =>
    st1 (fun a b => J (decide (p = i)) (decide (q = i)) a b (h i)) (fun t => ((t : ℝ) * h i) ^ m) (g i) with hS
  have key : ∀ j k, ∏ i, S i (ex2 j k i) =
      -((if j = p then if k = q then 1 else 0 else 0) + (if j = q then if k = p then 1 else 0 else 0)) *
        ∏ i, h i := by
    intro j k
    by_cases hpq : p = q
    · subst hpq
      have hp : ∀ m, m ≤ 2 → S p m = if m = 2 then -2 * h p else 0 := by
        intro m hm
        simp only [hS, decide_true]
        exact st1_stiff (h p) (g p) m hm
      by_cases hjk : j = p ∧ k = p
      · obtain ⟨rfl, rfl⟩ := hjk
        rw [← Finset.mul_prod_erase _ _ (Finset.mem_univ k), hp _ (by simp [ex2, ex1]), if_pos (by simp [ex2, ex1]),
          ← Finset.mul_prod_erase _ (fun i => h i) (Finset.mem_univ k)]
        have : ∀ i ∈ Finset.univ.erase k, S i (ex2 k k i) = h i := by
          intro i hi
          have hne : k ≠ i := (Finset.ne_of_mem_erase hi).symm
          simp only [hS, ex2, ex1, hne, decide_false, if_false, add_zero]
          exact st1_mass (h i) (g i)
        rw [Finset.prod_congr rfl this]
        simp only [if_true]; ring
      · rw [Finset.prod_eq_zero (Finset.mem_univ p)]
        · have : ¬ (j = p ∧ k = p) := hjk
          by_cases h1 : j = p
          · have h2 : k ≠ p := fun h => hjk ⟨h1, h⟩
            simp [h1, h2]
          · simp [h1]
        · rw [hp _ (by have := ex1_le j p; have := ex1_le k p; unfold ex2; omega), if_neg]
          unfold ex2 ex1
          split_ifs <;> omega
    · have hSp : ∀ m, m ≤ 1 → S p m = if m = 1 then -h p else 0 := by
        intro m hm
        have : ¬ q = p := fun h => hpq h.symm
        simp only [hS, decide_true, this, decide_false]
        exact st1_left (h p) (g p) m hm
      have hSq : ∀ m, m ≤ 1 → S q m = if m = 1 then h q else 0 := by
        intro m hm
        simp only [hS, decide_true, hpq, decide_false]
        exact st1_right (h q) (g q) m hm
      by_cases hjk : (j = p ∧ k = q) ∨ (j = q ∧ k = p)
      · have e1 : ∀ i, ex2 j k i = ex1 p i + ex1 q i := by
          rcases hjk with ⟨rfl, rfl⟩ | ⟨rfl, rfl⟩
          · exact fun i => rfl
          · intro i; unfold ex2; omega
        have hqp : q ≠ p := fun h => hpq h.symm
        rw [← Finset.mul_prod_erase _ _ (Finset.mem_univ p),
          ← Finset.mul_prod_erase _ _ (Finset.mem_erase.2 ⟨hqp, Finset.mem_univ q⟩),
          e1 p, e1 q]
        have ep : ex1 p p + ex1 q p = 1 := by simp [ex1, hqp]
        have eq : ex1 p q + ex1 q q = 1 := by simp [ex1, hpq]
        rw [ep, eq, hSp 1 le_rfl, hSq 1 le_rfl, if_pos rfl, if_pos rfl]
        have : ∀ i ∈ (Finset.univ.erase p).erase q, S i (ex2 j k i) = h i := by
          intro i hi
          have hiq : q ≠ i := (Finset.ne_of_mem_erase hi).symm
          have hip : p ≠ i := (Finset.ne_of_mem_erase (Finset.mem_of_mem_erase hi)).symm
          rw [e1 i]
          simp only [hS, ex1, hiq, hip, decide_false, if_false, add_zero]
          exact st1_mass (h i) (g i)
        rw [Finset.prod_congr rfl this,
          ← Finset.mul_prod_erase _ (fun i => h i) (Finset.mem_univ p),
          ← Finset.mul_prod_erase _ (fun i => h i) (Finset.mem_erase.2 ⟨hqp, Finset.mem_univ q⟩)]
        rcases hjk with ⟨rfl, rfl⟩ | ⟨rfl, rfl⟩
        · simp [hpq]
        · simp [hqp]
      · push Not at hjk
        have hz : (-((if j = p then if k = q then (1:ℝ) else 0 else 0) + (if j = q then if k = p then 1 else 0 else 0)) *
            ∏ i, h i) = 0 := by
          by_cases h1 : j = p
          · have h2 := hjk.1 h1
            have h3 : ¬ j = q := fun h => hpq (h1 ▸ h)
            simp [h2, h3]
          · by_cases h2 : j = q
            · have := hjk.2 h2
              simp [h1, this]
            · simp [h1, h2]
        rw [hz]
        by_cases hcase : ex2 j k p = 0
        · rw [Finset.prod_eq_zero (Finset.mem_univ p)]
          rw [hcase, hSp 0 (by omega)]; simp
        · by_cases hcase2 : ex2 j k q = 0
          · rw [Finset.prod_eq_zero (Finset.mem_univ q)]
            rw [hcase2, hSq 0 (by omega)]; simp
          · exfalso
            unfold ex2 ex1 at hcase hcase2
            by_cases h1 : j = p
            · have h2 := hjk.1 h1
              have h3 : j ≠ q := fun h => hpq (h1 ▸ h)
              simp [h3, h2] at hcase2
            · by_cases h2 : j = q
              · have := hjk.2 h2
                simp [h1, this] at hcase
              · by_cases h4 : k = p
                · have : k ≠ q := fun h => hpq (h4 ▸ h)
                  simp [h2, this] at hcase2
                · simp [h1, h4] at hcase
  have low : ∀ α : Fin d → ℕ, (∀ i, α i ≤ 1) → (p ≠ q → α p = 0 ∨ α q = 0) → ∏ i, S i (α i) = 0 := by
    intro α hα h2
    by_cases hpq : p = q
    · subst hpq
      rw [Finset.prod_eq_zero (Finset.mem_univ p)]
      simp only [hS, decide_true]
      rw [st1_stiff (h p) (g p) _ (by have := hα p; omega), if_neg (by have := hα p; omega)]
    · rcases h2 hpq with h2 | h2
      · rw [Finset.prod_eq_zero (Finset.mem_univ p)]
        have : ¬ q = p := fun h => hpq h.symm
        simp only [hS, decide_true, this, decide_false, h2]
        rw [st1_left (h p) (g p) 0 (by omega)]; simp
      · rw [Finset.prod_eq_zero (Finset.mem_univ q)]
        simp only [hS, decide_true, hpq, decide_false, h2]
        rw [st1_right (h q) (g q) 0 (by omega)]; simp
  have l0 : ∏ i, S i 0 = 0 := low (fun _ => 0) (fun _ => by omega) (fun _ => Or.inl rfl)
  have l1 : ∀ j, ∏ i, S i (ex1 j i) = 0 := fun j => low (ex1 j) (ex1_le j) fun hpq => by
    unfold ex1
    by_cases h1 : j = p
    · right; rw [if_neg]; rintro rfl; exact hpq h1.symm
    · left; rw [if_neg h1]
  have e1 : ∑ j, G j * ∏ i, S i (ex1 j i) = 0 := by
    refine Finset.sum_eq_zero fun j _ => ?_
    rw [l1 j, mul_zero]
  have e2 : ∑ j, ∑ k, H j k * ∏ i, S i (ex2 j k i) = -(H p q + H q p) * ∏ i, h i := by
    simp only [key]
    have : ∀ j k, H j k * (-((if j = p then if k = q then 1 else 0 else 0) +
        (if j = q then if k = p then 1 else 0 else 0)) * ∏ i, h i) =
        (if j = p then if k = q then -(H j k * ∏ i, h i) else 0 else 0) +
        (if j = q then if k = p then -(H j k * ∏ i, h i) else 0 else 0) := by
      intro j k; split_ifs <;> ring
    simp only [this, Finset.sum_add_distrib]
    have f1 : ∀ p q : Fin d, ∑ j, ∑ k, (if j = p then if k = q then -(H j k * ∏ i, h i) else 0 else 0) =
        -(H p q * ∏ i, h i) := by
      intro p q
      rw [Finset.sum_eq_single p, Finset.sum_eq_single q]
      · simp
      · intro k _ hk; simp [hk]
      · simp
      · intro j _ hj; simp [hj]
      · simp
    rw [f1, f1]; ring
  refine Eq.trans (congrArg₂ (· + ·) (congrArg₂ (· + ·) (congrArg (a * ·) l0) e1) e2) ?_
  ring

end mono

/-! ### Divergence on a pressure cell -/

/-- One factor of the divergence of a monomial on the cell `e`. -/
noncomputable def dv1 (dr : Bool) (a : Fin 2) (h : ℝ) (e : ℤ) (m : ℕ) : ℝ :=
  ∑ t : Fin 3, (((2 * e + ((t : ℕ) : ℤ) : ℤ) : ℝ) * h) ^ m * JP dr a t h

theorem dv1_mass (a : Fin 2) (h : ℝ) (e : ℤ) : dv1 false a h e 0 = h := by
  fin_cases a <;> simp [dv1, Fin.sum_univ_three, JP, pT] <;> ring

theorem dv1_deriv (a : Fin 2) (h : ℝ) (e : ℤ) (m : ℕ) (hm : m ≤ 1) :
    dv1 true a h e m = if m = 1 then h else 0 := by
  interval_cases m <;> fin_cases a <;> simp [dv1, Fin.sum_univ_three, JP, qT] <;> ring

section div
variable {NV : ℕ} (L : Fin d → Dir) (elemV : Pos d ℤ → Fin NV → Pos d ℤ)
  (off : Fin NV → Fin d → Fin 3) (hbij : Function.Bijective off) (hoff : Is4Q1 elemV off)
include hbij hoff

theorem div_mono (β : Fin d → Fin 3 → ℝ) (h : Pos d ℝ) (α : Fin d → ℕ)
    (hα : ∀ i, (L i).periodic = true → α i = 0) (e : Pos d ℤ) :
    ∑ k, (∏ i, ((wrap L (elemV e k) i : ℝ) * h i) ^ α i) * ∏ i, β i (off k i) =
      ∏ i, ∑ t : Fin 3, (((2 * e i + ((t : ℕ) : ℤ) : ℤ) : ℝ) * h i) ^ α i * β i t := by
  rw [← sum_fun_prod (fun i (t : Fin 3) => (((2 * e i + ((t : ℕ) : ℤ) : ℤ) : ℝ) * h i) ^ α i * β i t),
    ← hbij.sum_comp (fun τ : Fin d → Fin 3 => ∏ i,
      (((2 * e i + ((τ i : ℕ) : ℤ) : ℤ) : ℝ) * h i) ^ α i * β i (τ i))]
  refine Finset.sum_congr rfl fun k _ => ?_
  rw [← Finset.prod_mul_distrib]
  refine Finset.prod_congr rfl fun i _ => ?_
  congr 1
  by_cases hp : (L i).periodic = true
  · rw [hα i hp, pow_zero, pow_zero]
  · rw [wrap_apply, w1, if_neg hp, hoff]

theorem div_quad (h : Pos d ℝ) (c : Fin d) (b : Fin d → Fin 2) (a : ℝ) (G : Fin d → ℝ)
    (H : Fin d → Fin d → ℝ) (hG : ∀ i, (L i).periodic = true → G i = 0)
    (hH : ∀ i, (L i).periodic = true → ∀ k, H i k = 0 ∧ H k i = 0) (hc : H c c = 0) (e : Pos d ℤ) :
    ∑ k, quad a G H (fun i => (wrap L (elemV e k) i : ℝ) * h i) *
        ∏ i, JP (decide (c = i)) (b i) (off k i) (h i) =
      G c * ∏ i, h i + ∑ k, (H c k + H k c) *
        (dv1 false (b k) (h k) (e k) 1 * ∏ i ∈ Finset.univ.erase k, h i) := by
  set S : Fin d → ℕ → ℝ := fun i m => dv1 (decide (c = i)) (b i) (h i) (e i) m with hS
  have hm : ∀ α : Fin d → ℕ, (∀ i, (L i).periodic = true → α i = 0) →
      ∑ k, (∏ i, ((wrap L (elemV e k) i : ℝ) * h i) ^ α i) *
        ∏ i, JP (decide (c = i)) (b i) (off k i) (h i) = ∏ i, S i (α i) := fun α hα =>
    div_mono L elemV off hbij hoff (fun i t => JP (decide (c = i)) (b i) t (h i)) h α hα e
  have hSc : ∀ m, m ≤ 1 → S c m = if m = 1 then h c else 0 := by
    intro m hm
    simp only [hS, decide_true]
    exact dv1_deriv _ _ _ m hm
  have hSo : ∀ i, i ≠ c → S i 0 = h i := by
    intro i hi
    have : ¬ c = i := fun h => hi h.symm
    simp only [hS, this, decide_false]
    exact dv1_mass _ _ _
  have z : ∀ α : Fin d → ℕ, α c = 0 → ∏ i, S i (α i) = 0 := fun α hα => by
    rw [Finset.prod_eq_zero (Finset.mem_univ c)]
    rw [hα, hSc 0 (by omega)]; simp
  have one : ∏ i, S i (ex1 c i) = ∏ i, h i := by
    refine Finset.prod_congr rfl fun i _ => ?_
    by_cases hi : i = c
    · subst hi
      have : ex1 i i = 1 := by simp [ex1]
      rw [this, hSc 1 le_rfl, if_pos rfl]
    · have hci : ¬ c = i := fun h => hi h.symm
      have : ex1 c i = 0 := by simp [ex1, hci]
      rw [this, hSo i hi]
  have two : ∀ k, k ≠ c → ∏ i, S i (ex2 c k i) =
      dv1 false (b k) (h k) (e k) 1 * ∏ i ∈ Finset.univ.erase k, h i := by
    intro k hk
    rw [← Finset.mul_prod_erase _ _ (Finset.mem_univ k)]
    have hck : ¬ c = k := fun h => hk h.symm
    congr 1
    · have : ex2 c k k = 1 := by simp [ex2, ex1, hck]
      rw [this]; simp only [hS, hck, decide_false]
    · refine Finset.prod_congr rfl fun i hi => ?_
      have hik := Finset.ne_of_mem_erase hi
      by_cases hic : i = c
      · subst hic
        have : ex2 i k i = 1 := by simp [ex2, ex1, hk]
        rw [this, hSc 1 le_rfl, if_pos rfl]
      · have hci : ¬ c = i := fun h => hic h.symm
        have hki : ¬ k = i := fun h => hik h.symm
        have : ex2 c k i = 0 := by simp [ex2, ex1, hci, hki]
        rw [this, hSo i hic]
  have e0 : ∀ k, quad a G H (fun i => (wrap L (elemV e k) i : ℝ) * h i) *
        ∏ i, JP (decide (c = i)) (b i) (off k i) (h i) =
      a * ((∏ i, ((wrap L (elemV e k) i : ℝ) * h i) ^ (0:ℕ)) *
        ∏ i, JP (decide (c = i)) (b i) (off k i) (h i)) +
      ∑ j, G j * ((∏ i, ((wrap L (elemV e k) i : ℝ) * h i) ^ ex1 j i) *
        ∏ i, JP (decide (c = i)) (b i) (off k i) (h i)) +
      ∑ j, ∑ m, H j m * ((∏ i, ((wrap L (elemV e k) i : ℝ) * h i) ^ ex2 j m i) *
        ∏ i, JP (decide (c = i)) (b i) (off k i) (h i)) := by
    intro k
    simp only [quad, prod_ex0, prod_ex1 (fun i => (wrap L (elemV e k) i : ℝ) * h i),
      prod_ex2 (fun i => (wrap L (elemV e k) i : ℝ) * h i), ← mul_assoc, ← Finset.sum_mul, mul_one]
    ring
  rw [Finset.sum_congr rfl fun k _ => e0 k, Finset.sum_add_distrib, Finset.sum_add_distrib,
    ← Finset.mul_sum, hm (fun _ => 0) (fun _ _ => rfl), z _ rfl, mul_zero, zero_add]
  congr 1
  · rw [Finset.sum_comm]
    simp only [← Finset.mul_sum]
    rw [Finset.sum_eq_single c]
    · by_cases hp : (L c).periodic = true
      · rw [hG c hp, zero_mul, zero_mul]
      · rw [hm (ex1 c) (fun i hi => ?_), one]
        unfold ex1; rw [if_neg]; rintro rfl; exact hp hi
    · intro j _ hj
      by_cases hp : (L j).periodic = true
      · rw [hG j hp, zero_mul]
      · rw [hm (ex1 j) (fun i hi => ?_), z _ (by simp [ex1, hj]), mul_zero]
        unfold ex1; rw [if_neg]; rintro rfl; exact hp hi
    · simp
  · rw [Finset.sum_comm]
    have s1 : ∀ j, ∑ k, ∑ m, H j m * ((∏ i, ((wrap L (elemV e k) i : ℝ) * h i) ^ ex2 j m i) *
        ∏ i, JP (decide (c = i)) (b i) (off k i) (h i)) = ∑ m, H j m * ∏ i, S i (ex2 j m i) := by
      intro j
      rw [Finset.sum_comm]
      refine Finset.sum_congr rfl fun m _ => ?_
      rw [← Finset.mul_sum]
      by_cases hp : (L j).periodic = true
      · rw [(hH j hp m).1, zero_mul, zero_mul]
      · by_cases hq : (L m).periodic = true
        · rw [(hH m hq j).2, zero_mul, zero_mul]
        · rw [hm (ex2 j m) (fun i hi => ?_)]
          unfold ex2 ex1
          rw [if_neg, if_neg]
          · rintro rfl; exact hq hi
          · rintro rfl; exact hp hi
    rw [Finset.sum_congr rfl fun j _ => s1 j]
    set X : Fin d → ℝ := fun k => dv1 false (b k) (h k) (e k) 1 * ∏ i ∈ Finset.univ.erase k, h i with hX
    have s2 : ∀ j m, H j m * ∏ i, S i (ex2 j m i) =
        (if j = c then H j m * X m else 0) + (if m = c then H j m * X j else 0) := by
      intro j m
      by_cases h1 : j = c
      · by_cases h2 : m = c
        · rw [h1, h2, hc]; simp
        · subst h1
          rw [two m h2, if_pos rfl, if_neg h2, add_zero]
      · by_cases h2 : m = c
        · subst h2
          have : ∀ i, ex2 j m i = ex2 m j i := fun i => by unfold ex2; omega
          simp only [this]
          rw [two j h1, if_neg h1, if_true, zero_add]
        · rw [z _ (by simp [ex2, ex1, h1, h2]), if_neg h1, if_neg h2]; ring
    simp only [s2, Finset.sum_add_distrib]
    have t1 : ∑ j, ∑ m, (if j = c then H j m * X m else 0) = ∑ m, H c m * X m := by
      rw [Finset.sum_comm]; simp
    have t2 : ∑ j, ∑ m, (if m = c then H j m * X j else 0) = ∑ m, H m c * X m := by
      simp
    rw [t1, t2, ← Finset.sum_add_distrib]
    exact Finset.sum_congr rfl fun k _ => by ring

end div

/-! ### Gradient of an affine pressure -/

/-- One factor of the gradient: the pressure nodes are `2 h` apart. -/
noncomputable def gr1 (dr : Bool) (N : ℤ) (per : Bool) (lx : List ℤ) (h : ℝ) (m : ℕ) (g : ℤ) : ℝ :=
  ∑ e ∈ Finset.Ico (0 : ℤ) (N - 1), ∑ t : Fin 3,
    if w1 (velDir N per lx) (2 * e + ((t : ℕ) : ℤ)) = g then
      ∑ a : Fin 2, ((w1 (presDir N per lx) (e + ((a : ℕ) : ℤ)) : ℝ) * (2 * h)) ^ m * JP dr a t h else 0

theorem gr1_mass (N : ℤ) (per : Bool) (lx : List ℤ) (h : ℝ) (g : ℤ) (hN : 2 ≤ N)
    (hg : Free1 (velDir N per lx) g) : gr1 false N per lx h 0 g = h := by
  have e1 : ∀ t : Fin 3, ∑ a : Fin 2, JP false a t h = h * (mW t : ℝ) := by
    intro t; fin_cases t <;> simp [JP, pT, mW] <;> ring
  have := factor_mass per N g lx hN hg.1 hg.2.1
  unfold gr1
  simp only [pow_zero, one_mul, e1]
  have e2 : trapezoid (velDir N per lx) g = 1 := by
    unfold trapezoid
    rw [if_neg]
    rintro ⟨hp, h0⟩
    have := hg.2.2 hp
    tauto
  rw [e2] at this
  have h3 := congrArg (h * ·) this
  simp only [Finset.mul_sum, mul_ite, mul_zero, mul_one] at h3
  exact h3

theorem gr1_deriv0 (N : ℤ) (per : Bool) (lx : List ℤ) (h : ℝ) (g : ℤ) (hN : 2 ≤ N)
    (hg : Free1 (velDir N per lx) g) : gr1 true N per lx h 0 g = 0 := by
  have e1 : ∀ t : Fin 3, ∑ a : Fin 2, JP true a t h = (dW t : ℝ) := by
    intro t; fin_cases t <;> simp [JP, qT, dW] <;> ring
  have := factor_normal per N g lx hN
  unfold gr1
  simp only [pow_zero, one_mul, e1]
  refine this.trans ?_
  unfold outward
  split_ifs with h1 h2 h3 h3
  · rfl
  all_goals (have := hg.2.2 (by simpa using h1); simp_all)

theorem gr1_deriv1 (N : ℤ) (lx : List ℤ) (h : ℝ) (g : ℤ)
    (hg : Free1 (velDir N false lx) g) : gr1 true N false lx h 1 g = -h := by
  have hg' := hg.2.2 rfl
  have h1 : 1 ≤ g := by have := hg.1; have := hg'.1; omega
  have h2 : g ≤ 2 * (N - 1) - 1 := by
    have := hg.2.1; have := hg'.2
    simp only [velDir, meshVel, Bool.false_eq_true, if_false] at *
    omega
  have : gr1 true N false lx h 1 g = op1 (FD h) (N - 1) (fun q => ((q : ℝ) * (2 * h))) g := by
    simp only [gr1, op1, w1, velDir, presDir, Bool.false_eq_true, if_false, pow_one, FD]
  rw [this]
  rcases Int.even_or_odd' g with ⟨m, rfl | rfl⟩
  · rw [op1_even _ _ _ m (by omega) (by omega)]
    simp [FD, JP, qT]; ring
  · rw [op1_odd _ _ _ m (by omega) (by omega)]
    simp [FD, JP, qT]; ring

section grad
variable {NP NV : ℕ} (N : Fin d → ℤ) (per : Fin d → Bool) (lx : Fin d → List ℤ)
  (elemP : Pos d ℤ → Fin NP → Pos d ℤ) (offP : Fin NP → Fin d → Fin 2) (hbijP : Function.Bijective offP)
  (helem : ∀ e k i, elemP e k i = e i + ((offP k i : ℕ) : ℤ))
  (elemV : Pos d ℤ → Fin NV → Pos d ℤ)
  (off : Fin NV → Fin d → Fin 3) (hbij : Function.Bijective off) (hoff : Is4Q1 elemV off)
include hbijP helem hbij hoff

theorem grad_mono (dr : Fin d → Bool) (h : Pos d ℝ) (α : Fin d → ℕ) (g : Pos d ℤ) :
    (∑ e ∈ gridElems (presLayout N per lx), ∑ k, if wrap (velLayout N per lx) (elemV e k) = g then
      ∑ ip, (∏ i, ((wrap (presLayout N per lx) (elemP e ip) i : ℝ) * (2 * h i)) ^ α i) *
        ∏ i, JP (dr i) (offP ip i) (off k i) (h i) else 0) =
      ∏ i, gr1 (dr i) (N i) (per i) (lx i) (h i) (α i) (g i) := by
  have h1 : ∀ e : Pos d ℤ, (∑ k, if wrap (velLayout N per lx) (elemV e k) = g then
      ∑ ip, (∏ i, ((wrap (presLayout N per lx) (elemP e ip) i : ℝ) * (2 * h i)) ^ α i) *
        ∏ i, JP (dr i) (offP ip i) (off k i) (h i) else 0) =
      ∑ t : Fin d → Fin 3, ∏ i, (if w1 (velLayout N per lx i) (2 * e i + ((t i : ℕ) : ℤ)) = g i then
        ∑ a : Fin 2, ((w1 (presLayout N per lx i) (e i + ((a : ℕ) : ℤ)) : ℝ) * (2 * h i)) ^ α i *
          JP (dr i) a (t i) (h i) else 0) := by
    intro e
    rw [← hbij.sum_comp (fun t : Fin d → Fin 3 => ∏ i,
      (if w1 (velLayout N per lx i) (2 * e i + ((t i : ℕ) : ℤ)) = g i then
        ∑ a : Fin 2, ((w1 (presLayout N per lx i) (e i + ((a : ℕ) : ℤ)) : ℝ) * (2 * h i)) ^ α i *
          JP (dr i) a (t i) (h i) else 0))]
    refine Finset.sum_congr rfl fun k _ => ?_
    rw [Finset.prod_ite_zero]
    have hiff : wrap (velLayout N per lx) (elemV e k) = g ↔ ∀ i ∈ Finset.univ,
        w1 (velLayout N per lx i) (2 * e i + ((off k i : ℕ) : ℤ)) = g i := by
      rw [funext_iff]
      simp only [wrap_apply, hoff e k, Finset.mem_univ, true_imp_iff]
    simp only [hiff]
    split_ifs
    · rw [← sum_fun_prod (fun i (a : Fin 2) => ((w1 (presLayout N per lx i) (e i + ((a : ℕ) : ℤ)) : ℝ) *
          (2 * h i)) ^ α i * JP (dr i) a (off k i) (h i)),
        ← hbijP.sum_comp (fun t : Fin d → Fin 2 => ∏ i,
          ((w1 (presLayout N per lx i) (e i + ((t i : ℕ) : ℤ)) : ℝ) *
          (2 * h i)) ^ α i * JP (dr i) (t i) (off k i) (h i))]
      refine Finset.sum_congr rfl fun k2 _ => ?_
      rw [← Finset.prod_mul_distrib]
      exact Finset.prod_congr rfl fun i _ => by rw [wrap_apply, helem]
    · rfl
  rw [Finset.sum_congr rfl fun e _ => h1 e]
  unfold gridElems
  rw [sum_prod_gen (fun i => Finset.Ico 0 (presLayout N per lx i).nElem) (fun i x (t : Fin 3) =>
    (if w1 (velLayout N per lx i) (2 * x + ((t : ℕ) : ℤ)) = g i then
        ∑ a : Fin 2, ((w1 (presLayout N per lx i) (x + ((a : ℕ) : ℤ)) : ℝ) * (2 * h i)) ^ α i *
          JP (dr i) a t (h i) else 0))]
  refine Finset.prod_congr rfl fun i _ => ?_
  rw [pres_nElem]
  rfl

/-- The gradient of an affine pressure at a node that is on no wall. -/
theorem grad_affine (h : Pos d ℝ) (hN : ∀ i, 2 ≤ N i) (c : Fin d) (p0 : ℝ) (γ : Fin d → ℝ)
    (hγ : ∀ i, per i = true → γ i = 0) (g : Pos d ℤ) (hg : ∀ i, Free1 (velLayout N per lx i) (g i)) :
    (∑ e ∈ gridElems (presLayout N per lx), ∑ k, if wrap (velLayout N per lx) (elemV e k) = g then
      ∑ ip, -(affine p0 γ (fun i => (wrap (presLayout N per lx) (elemP e ip) i : ℝ) * (2 * h i)) *
        ∏ i, JP (decide (c = i)) (offP ip i) (off k i) (h i)) else 0) = γ c * ∏ i, h i := by
  have hm := grad_mono N per lx elemP offP hbijP helem elemV off hbij hoff (fun i => decide (c = i)) h
  set T : (Fin d → ℕ) → ℝ := fun α => (∑ e ∈ gridElems (presLayout N per lx), ∑ k,
    if wrap (velLayout N per lx) (elemV e k) = g then
      ∑ ip, (∏ i, ((wrap (presLayout N per lx) (elemP e ip) i : ℝ) * (2 * h i)) ^ α i) *
        ∏ i, JP (decide (c = i)) (offP ip i) (off k i) (h i) else 0) with hT
  have e0 : (∑ e ∈ gridElems (presLayout N per lx), ∑ k, if wrap (velLayout N per lx) (elemV e k) = g then
      ∑ ip, -(affine p0 γ (fun i => (wrap (presLayout N per lx) (elemP e ip) i : ℝ) * (2 * h i)) *
        ∏ i, JP (decide (c = i)) (offP ip i) (off k i) (h i)) else 0) =
      -(p0 * T (fun _ => 0)) + ∑ j, -(γ j * T (ex1 j)) := by
    simp only [hT, Finset.mul_sum]
    rw [← Finset.sum_neg_distrib]
    simp only [← Finset.sum_neg_distrib]
    rw [Finset.sum_comm (s := (Finset.univ : Finset (Fin d))), ← Finset.sum_add_distrib]
    refine Finset.sum_congr rfl fun e _ => ?_
    rw [Finset.sum_comm (s := (Finset.univ : Finset (Fin d))), ← Finset.sum_add_distrib]
    refine Finset.sum_congr rfl fun k _ => ?_
    split_ifs
    · simp only [Finset.mul_sum]
      simp only [← Finset.sum_neg_distrib]
      rw [Finset.sum_comm (s := (Finset.univ : Finset (Fin d))), ← Finset.sum_add_distrib]
      refine Finset.sum_congr rfl fun ip _ => ?_
      simp only [affine, prod_ex0,
        prod_ex1 (fun i => (wrap (presLayout N per lx) (elemP e ip) i : ℝ) * (2 * h i)), one_mul]
      rw [Finset.sum_neg_distrib, add_mul, Finset.sum_mul, neg_add]
      congr 2
      exact Finset.sum_congr rfl fun j _ => by ring
    · simp
  have z : ∀ α : Fin d → ℕ, α c = 0 → T α = 0 := fun α hα => by
    rw [hT]; simp only [hm]
    rw [Finset.prod_eq_zero (Finset.mem_univ c)]
    rw [hα]
    simp only [decide_true]
    exact gr1_deriv0 _ _ _ _ _ (hN c) (hg c)
  rw [e0, z _ rfl, Finset.sum_eq_single c]
  · by_cases hp : per c = true
    · rw [hγ c hp]; ring
    · have hp' : per c = false := by simpa using hp
      have : T (ex1 c) = -∏ i, h i := by
        rw [hT]; simp only [hm]
        rw [← Finset.mul_prod_erase _ _ (Finset.mem_univ c),
          ← Finset.mul_prod_erase _ (fun i => h i) (Finset.mem_univ c)]
        have e1 : ex1 c c = 1 := by simp [ex1]
        have e2 : gr1 (decide (c = c)) (N c) (per c) (lx c) (h c) 1 (g c) = -h c := by
          have hc := hg c
          unfold velLayout at hc
          rw [hp'] at hc ⊢
          simp only [decide_true]
          exact gr1_deriv1 _ _ _ _ hc
        rw [e1, e2]
        have : ∀ i ∈ Finset.univ.erase c, gr1 (decide (c = i)) (N i) (per i) (lx i) (h i) (ex1 c i) (g i) = h i := by
          intro i hi
          have hne : ¬ c = i := fun h => (Finset.ne_of_mem_erase hi) h.symm
          simp only [ex1, hne, decide_false, if_false]
          exact gr1_mass _ _ _ _ _ (hN i) (hg i)
        rw [Finset.prod_congr rfl this]; ring
      rw [this]; ring
  · intro j _ hj
    rw [z _ (by simp [ex1, hj])]; ring
  · simp

end grad
end Cafes.Props
